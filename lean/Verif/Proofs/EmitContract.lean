import Verif.Proofs.EmitRead
/-
The emitter on whole contracts: dependence on the interface only, exactness on clean interfaces,
invariants for arbitrary types.
-/
namespace Verif

set_option linter.unusedSimpArgs false

variable (dbg : StackObj → Str)

/-! ### Only the interface matters -/

def evInitT : List NodeTypedIdentifier → M SrState Unit
  | [] => M.pure ()
  | p :: ps =>
    (evTyped dbg p).bind fun _ => (popVar dbg).bind fun x =>
      M.bind (fun s => ({ s with contract :=
          { s.contract with initParams := s.contract.initParams ++ [x] } }, .ok ())) fun _ =>
        evInitT ps

def evAgainT : List NodeTypedIdentifier → M SrState Unit
  | [] => M.pure ()
  | p :: ps => (evTyped dbg p).bind fun _ => evAgainT ps

def evParamsT : List NodeTypedIdentifier → M SrState (List Field)
  | [] => M.pure []
  | p :: ps =>
    (evTyped dbg p).bind fun _ => (popVar dbg).bind fun x => (evParamsT ps).bind fun xs =>
      M.pure (x :: xs)

def evFieldsT : List NodeTypedIdentifier → M SrState Unit
  | [] => M.pure ()
  | p :: ps => (evTyped dbg p).bind fun _ => (popVar dbg).bind fun x => (addField x).bind fun _ =>
      evFieldsT ps

def evTransT (name : Str) (ps : List NodeTypedIdentifier) : M SrState Unit :=
  (SrState.pushObj (.ident name .componentName)).bind fun _ => (evParamsT dbg ps).bind fun ps =>
    (popIdent dbg).bind fun x =>
      if x.2 = .componentName then addTransition ⟨x.1, ps⟩ else M.panic

def evTranssT : List NodeTransitionDefinition → M SrState Unit
  | [] => M.pure ()
  | t :: ts => (evTransT dbg (componentName t.name.node) (typedOf t.parameters.node.parameters)).bind
      fun _ => evTranssT ts

theorem componentName_text (n : NodeComponentId) : n.text = componentName n := by cases n <;> rfl

theorem evInit_T : ∀ ps, evInit dbg ps = evInitT dbg (typedOf ps)
  | [] => rfl
  | p :: ps => by
    rw [evInit, typedOf, List.map_cons, evInitT, evInit_T ps]; rfl

theorem evAgain_T : ∀ ps, evAgain dbg ps = evAgainT dbg (typedOf ps)
  | [] => rfl
  | p :: ps => by
    rw [evAgain, typedOf, List.map_cons, evAgainT, evAgain_T ps]; rfl

theorem evParams_T : ∀ ps, evParams dbg ps = evParamsT dbg (typedOf ps)
  | [] => rfl
  | p :: ps => by
    rw [evParams, typedOf, List.map_cons, evParamsT, evParams_T ps]; rfl

theorem evFields_T : ∀ fs, evEach (evContractField dbg) fs = evFieldsT dbg (fieldTypedOf fs)
  | [] => rfl
  | f :: fs => by
    rw [evEach, fieldTypedOf, List.map_cons, evFieldsT, evFields_T fs]
    simp only [evContractField, M.bind_assoc, fieldTypedOf]

theorem evComponents_T : ∀ cs, evEach (evComponent dbg) cs = evTranssT dbg (transitionsOf cs)
  | [] => rfl
  | ⟨.transitionComponent t, a, b⟩ :: cs => by
    have : transitionsOf (⟨.transitionComponent t, a, b⟩ :: cs) = t.node :: transitionsOf cs := rfl
    rw [this, evEach, evTranssT, evComponents_T cs]
    simp only [evComponent, evTransition, evTransT, evParams_T, componentName_text]
  | ⟨.procedureComponent t, a, b⟩ :: cs => by
    have : transitionsOf (⟨.procedureComponent t, a, b⟩ :: cs) = transitionsOf cs := rfl
    rw [this, evEach, evComponents_T cs]
    simp only [evComponent, M.pure_bind]

/-- the emitter as a function of the interface part of a contract definition -/
def evIface (name : NodeTypeNameIdentifier) (ps fs : List NodeTypedIdentifier)
    (ts : List NodeTransitionDefinition) : M SrState Unit :=
  (evTypeName name).bind fun _ => (setName name.display).bind fun _ => (evInitT dbg ps).bind fun _ =>
    (evAgainT dbg ps).bind fun _ => (evFieldsT dbg fs).bind fun _ => evTranssT dbg ts

theorem evContract_T (c : NodeContractDefinition) :
    evContract dbg c = evIface dbg c.contractName.node (typedOf c.parameters.node.parameters)
      (fieldTypedOf c.fields) (transitionsOf c.components) := by
  simp only [evContract, evIface, evInit_T, evAgain_T, evFields_T, evComponents_T]

/-! ### The reading decides -/

theorem evTyped_clean {n : NodeTypedIdentifier} {l : List Str} {t : Ty}
    (h : readTypeW n.annotation.node.typeName = .clean l (some t)) (s : SrState) :
    evTyped dbg n s =
      (⟨.varDecl (.mk n.identifierName.node t) :: (leftovers l ++ s.stack), s.contract⟩, .ok ()) := by
  have hr := evTypeW_read dbg n.annotation.node.typeName
  rw [h] at hr
  rw [evTyped, typed_run dbg hr]

/-- the problem with a typed identifier, if any -/
def problemOf (n : NodeTypedIdentifier) : Option Problem :=
  match readTypeW n.annotation.node.typeName with
  | .clean _ (some _) => none
  | .clean _ none => some .panics
  | .bad w => some w

theorem evTyped_problem {n : NodeTypedIdentifier} {w : Problem} (h : problemOf n = some w) :
    Has (evTyped dbg n) w := by
  have hr := evTypeW_read dbg n.annotation.node.typeName
  unfold problemOf at h
  split at h
  · simp at h
  · rename_i l e
    simp at h; subst h
    rw [e] at hr
    intro s
    rw [evTyped, typed_run dbg hr]
  · rename_i w' e
    simp at h; subst h
    rw [e] at hr
    exact Has.bind hr _

/-- the two cases of `readAll` on a non-empty list -/
theorem readAll_cons (n : NodeTypedIdentifier) (ns : List NodeTypedIdentifier) :
    (∃ w, problemOf n = some w ∧ readAll (n :: ns) = .error w) ∨
    (∃ l t, readTypeW n.annotation.node.typeName = .clean l (some t) ∧
      readAll (n :: ns) = match readAll ns with
        | .ok (l', fs) => .ok (l' ++ l, .mk n.identifierName.node t :: fs)
        | .error w => .error w) := by
  unfold problemOf
  rw [readAll]
  cases h : readTypeW n.annotation.node.typeName with
  | bad w => exact .inl ⟨w, rfl, rfl⟩
  | clean l o =>
    cases o with
    | none => exact .inl ⟨.panics, rfl, rfl⟩
    | some t => exact .inr ⟨l, t, rfl, rfl⟩

theorem Has.step {α β : Type} {m : M SrState α} {f : α → M SrState β} {w : Problem}
    {g : SrState → SrState} {a : α} (h : ∀ s, m s = (g s, .ok a)) (h2 : Has (f a) w) :
    Has (m.bind f) w := by
  cases w with
  | panics => intro s; simp only [M.bind, h]; exact h2 _
  | fails => intro s; simp only [M.bind, h]; exact h2 _
  | misread => trivial

theorem evInitT_read : ∀ ps : List NodeTypedIdentifier,
    match (generalizing := false) readAll ps with
    | .ok (l, fs) => ∀ s : SrState, evInitT dbg ps s =
        (⟨leftovers l ++ s.stack, { s.contract with initParams := s.contract.initParams ++ fs }⟩, .ok ())
    | .error w => Has (evInitT dbg ps) w
  | [] => by intro s; simp [evInitT, M.pure, leftovers]
  | p :: ps => by
    have ih := evInitT_read ps
    rcases readAll_cons p ps with ⟨w, h1, h2⟩ | ⟨l, t, h1, h2⟩
    · rw [h2]
      exact Has.bind (evTyped_problem dbg h1) _
    · rw [h2]
      revert ih
      cases readAll ps with
      | ok r =>
        obtain ⟨l', fs⟩ := r
        intro ih s
        simp only at ih ⊢
        rw [evInitT, M.bind, evTyped_clean dbg h1]
        simp only [M.bind, popVar]
        rw [ih]
        simp [leftovers_append]
      | error w =>
        intro ih
        simp only at ih ⊢
        rw [evInitT]
        refine Has.congr (m' := M.bind (fun s => ((⟨leftovers l ++ s.stack, { s.contract with
          initParams := s.contract.initParams ++ [.mk p.identifierName.node t] }⟩ : SrState),
          Outcome.ok ())) fun _ => evInitT dbg ps) (fun s => ?_) (Has.step (fun s => rfl) ih)
        simp only [M.bind, evTyped_clean dbg h1, popVar]

theorem evAgainT_read : ∀ (ps : List NodeTypedIdentifier) (l : List Str) (fs : List Field),
    readAll ps = .ok (l, fs) → ∀ s : SrState, ∃ st, evAgainT dbg ps s = (⟨st, s.contract⟩, .ok ()) ∧
      (ps ≠ [] → ∃ f st', st = .varDecl f :: st')
  | [], l, fs, h, s => ⟨s.stack, rfl, fun h => absurd rfl h⟩
  | p :: ps, l, fs, h, s => by
    rcases readAll_cons p ps with ⟨w, h1, h2⟩ | ⟨l, t, h1, h2⟩
    · rw [h2] at h; simp at h
    · rw [h2] at h
      split at h
      · rename_i l' fs' hr
        obtain ⟨st, e, hne⟩ := evAgainT_read ps l' fs' hr
          ⟨.varDecl (.mk p.identifierName.node t) :: (leftovers l ++ s.stack), s.contract⟩
        refine ⟨st, by rw [evAgainT, M.bind, evTyped_clean dbg h1]; exact e, fun _ => ?_⟩
        cases ps with
        | nil =>
          rw [evAgainT, M.pure] at e
          simp only [Prod.mk.injEq, SrState.mk.injEq, and_true] at e
          exact ⟨_, _, e.symm⟩
        | cons q ps => exact hne (by simp)
      · simp at h

theorem evParamsT_read : ∀ ps : List NodeTypedIdentifier,
    match (generalizing := false) readAll ps with
    | .ok (l, fs) => ∀ s : SrState, evParamsT dbg ps s =
        (⟨leftovers l ++ s.stack, s.contract⟩, .ok fs)
    | .error w => Has (evParamsT dbg ps) w
  | [] => by intro s; simp [evParamsT, M.pure, leftovers]
  | p :: ps => by
    have ih := evParamsT_read ps
    rcases readAll_cons p ps with ⟨w, h1, h2⟩ | ⟨l, t, h1, h2⟩
    · rw [h2]
      exact Has.bind (evTyped_problem dbg h1) _
    · rw [h2]
      revert ih
      cases readAll ps with
      | ok r =>
        obtain ⟨l', fs⟩ := r
        intro ih s
        simp only at ih ⊢
        rw [evParamsT, M.bind, evTyped_clean dbg h1]
        simp only [M.bind, popVar]
        rw [ih]
        simp [leftovers_append, M.pure]
      | error w =>
        intro ih
        simp only at ih ⊢
        rw [evParamsT]
        refine Has.congr (m' := M.bind (fun s => ((⟨leftovers l ++ s.stack, s.contract⟩ : SrState),
          Outcome.ok ())) fun _ => (evParamsT dbg ps).bind fun xs =>
            M.pure (.mk p.identifierName.node t :: xs)) (fun s => ?_)
          (Has.step (fun s => rfl) (Has.bind ih _))
        simp only [M.bind, evTyped_clean dbg h1, popVar]

theorem evFieldsT_read : ∀ ps : List NodeTypedIdentifier,
    match (generalizing := false) readAll ps with
    | .ok (l, fs) => ∀ s : SrState, evFieldsT dbg ps s =
        (⟨leftovers l ++ s.stack, { s.contract with fields := s.contract.fields ++ fs }⟩, .ok ())
    | .error w => Has (evFieldsT dbg ps) w
  | [] => by intro s; simp [evFieldsT, M.pure, leftovers]
  | p :: ps => by
    have ih := evFieldsT_read ps
    rcases readAll_cons p ps with ⟨w, h1, h2⟩ | ⟨l, t, h1, h2⟩
    · rw [h2]
      exact Has.bind (evTyped_problem dbg h1) _
    · rw [h2]
      revert ih
      cases readAll ps with
      | ok r =>
        obtain ⟨l', fs⟩ := r
        intro ih s
        simp only at ih ⊢
        rw [evFieldsT, M.bind, evTyped_clean dbg h1]
        simp only [M.bind, popVar, addField]
        rw [ih]
        simp [leftovers_append]
      | error w =>
        intro ih
        simp only at ih ⊢
        rw [evFieldsT]
        refine Has.congr (m' := M.bind (fun s => ((⟨leftovers l ++ s.stack, { s.contract with
          fields := s.contract.fields ++ [.mk p.identifierName.node t] }⟩ : SrState),
          Outcome.ok ())) fun _ => evFieldsT dbg ps) (fun s => ?_) (Has.step (fun s => rfl) ih)
        simp only [M.bind, evTyped_clean dbg h1, popVar, addField]

theorem evTransT_read (name : Str) (ps : List NodeTypedIdentifier) :
    match (generalizing := false) readAll ps with
    | .ok ([], fs) => ∀ s : SrState, evTransT dbg name ps s =
        (⟨s.stack, { s.contract with transitions := s.contract.transitions ++ [⟨name, fs⟩] }⟩, .ok ())
    | .ok (_ :: _, _) => Panics (evTransT dbg name ps)
    | .error w => Has (evTransT dbg name ps) w := by
  have h := evParamsT_read dbg ps
  revert h
  cases readAll ps with
  | error w =>
    intro h
    simp only at h ⊢
    rw [evTransT]
    exact Has.step (g := fun s => ⟨.ident name .componentName :: s.stack, s.contract⟩) (a := ())
      (fun s => rfl) (Has.bind h _)
  | ok r =>
    obtain ⟨l, fs⟩ := r
    intro h
    cases l with
    | nil =>
      intro s
      simp only at h
      simp only [evTransT, M.bind, SrState.pushObj, h, leftovers, List.map_nil, List.nil_append, popIdent,
        if_true, addTransition]
    | cons x l =>
      intro s
      simp only at h
      simp only [evTransT, M.bind, SrState.pushObj, h, leftovers, List.map_cons, List.cons_append, popIdent]
      rfl

theorem evTranssT_read : ∀ ts : List NodeTransitionDefinition,
    match (generalizing := false) readTransitions ts with
    | .ok rs => ∀ s : SrState, evTranssT dbg ts s =
        (⟨s.stack, { s.contract with transitions := s.contract.transitions ++ rs }⟩, .ok ())
    | .error w => Has (evTranssT dbg ts) w
  | [] => by intro s; simp [evTranssT, M.pure]
  | t :: ts => by
    have ih := evTranssT_read ts
    have h := evTransT_read dbg (componentName t.name.node) (typedOf t.parameters.node.parameters)
    rw [readTransitions]
    revert h
    cases readAll (typedOf t.parameters.node.parameters) with
    | error w => exact fun h => Has.bind h _
    | ok r =>
      obtain ⟨l, fs⟩ := r
      cases l with
      | cons x l => exact fun h => Panics.bind h _
      | nil =>
        intro h
        simp only at h
        revert ih
        simp only
        cases readTransitions ts with
        | error w => exact fun ih => Has.step h ih
        | ok rs =>
          intro ih s
          simp only at ih ⊢
          rw [evTranssT, M.bind, h]
          simp only [ih]
          simp

theorem evTypeName_ok (n : NodeTypeNameIdentifier) (s : SrState) :
    ∃ st, evTypeName n s = (⟨st, s.contract⟩, .ok ()) := by
  cases n <;> exact ⟨_, rfl⟩

/-- how a computation ends, as a result of emission -/
theorem Has.outcome {w : Problem} {m : M SrState Unit} (h : Has m w) (s : SrState) :
    match (generalizing := false) w with
    | .panics => ∃ s1, m s = (s1, .panic)
    | .fails => ∃ s1 e, m s = (s1, .err e)
    | .misread => True := by
  cases w with
  | panics =>
    have := h s
    exact ⟨_, Prod.ext rfl this⟩
  | fails =>
    obtain ⟨e, this⟩ := h s
    exact ⟨_, e, Prod.ext rfl this⟩
  | misread => trivial

/-- the state when the fields are reached -/
theorem evIface_params {name : NodeTypeNameIdentifier} {ps fs : List NodeTypedIdentifier}
    {ts : List NodeTransitionDefinition} {l : List Str} {a : List Field} (ha : readAll ps = .ok (l, a)) :
    ∃ st, evIface dbg name ps fs ts SrState.init =
      ((evFieldsT dbg fs).bind fun _ => evTranssT dbg ts) ⟨st, ⟨name.display, a, [], []⟩⟩ ∧
      (ps ≠ [] → ∃ f st', st = .varDecl f :: st') ∧
      (ps = [] → evTypeName name SrState.init = (⟨st, Contract.empty⟩, .ok ())) := by
  obtain ⟨st, h⟩ := evTypeName_ok name SrState.init
  have h1 := evInitT_read dbg ps
  rw [ha] at h1
  simp only at h1
  obtain ⟨st2, h2, h3⟩ := evAgainT_read dbg ps l a ha ⟨leftovers l ++ st, ⟨name.display, a, [], []⟩⟩
  refine ⟨st2, ?_, h3, ?_⟩
  · rw [evIface, M.bind, h]
    simp only [M.bind, setName, SrState.init, Contract.empty, h1, List.nil_append, h2]
  · rintro rfl
    rw [h]
    simp only [readAll, Except.ok.injEq, Prod.mk.injEq] at ha
    obtain ⟨rfl, rfl⟩ := ha
    rw [evAgainT, M.pure] at h2
    simp only [Prod.mk.injEq, SrState.mk.injEq, and_true] at h2
    rw [← h2]
    rfl

/-- The reading of a program decides the outcome of emission. -/
theorem emitProgram_read (p : NodeProgram) :
    match (generalizing := false) readProgram p with
    | .ok c => emitProgram dbg p = .ok c
    | .error .panics => emitProgram dbg p = .panic
    | .error .fails => ∃ e, emitProgram dbg p = .err e
    | .error .misread => True := by
  rw [emitProgram_ev, evContract_T]
  simp only [readProgram]
  generalize typedOf p.contractDefinition.node.parameters.node.parameters = ps
  generalize fieldTypedOf p.contractDefinition.node.fields = fs
  generalize transitionsOf p.contractDefinition.node.components = ts
  generalize p.contractDefinition.node.contractName.node = name
  cases hp : readAll ps with
  | error w =>
    have h := evInitT_read dbg ps
    rw [hp] at h
    simp only at h ⊢
    obtain ⟨st, hn⟩ := evTypeName_ok name SrState.init
    have h2 : evIface dbg name ps fs ts SrState.init =
        ((evInitT dbg ps).bind fun _ => (evAgainT dbg ps).bind fun _ => (evFieldsT dbg fs).bind fun _ =>
          evTranssT dbg ts) ⟨st, ⟨name.display, [], [], []⟩⟩ := by
      rw [evIface, M.bind, hn]
      rfl
    rw [h2]
    have h3 := Has.outcome (Has.bind h fun _ => (evAgainT dbg ps).bind fun _ =>
      (evFieldsT dbg fs).bind fun _ => evTranssT dbg ts) ⟨st, ⟨name.display, [], [], []⟩⟩
    cases w with
    | panics => obtain ⟨s1, e⟩ := h3; simp only [e]
    | fails => obtain ⟨s1, e, h3⟩ := h3; exact ⟨e, by rw [h3]⟩
    | misread => trivial
  | ok r =>
    obtain ⟨l, a⟩ := r
    obtain ⟨st, e, _⟩ := evIface_params dbg (name := name) (fs := fs) (ts := ts) hp
    rw [e]
    have h := evFieldsT_read dbg fs
    cases hf : readAll fs with
    | error w =>
      rw [hf] at h
      have h3 := Has.outcome (Has.bind h fun _ => evTranssT dbg ts) ⟨st, ⟨name.display, a, [], []⟩⟩
      simp only
      cases w with
      | panics => obtain ⟨s1, e⟩ := h3; simp only [e]
      | fails => obtain ⟨s1, e, h3⟩ := h3; exact ⟨e, by rw [h3]⟩
      | misread => trivial
    | ok r =>
      obtain ⟨l2, b⟩ := r
      rw [hf] at h
      simp only at h ⊢
      rw [M.bind, h]
      have h := evTranssT_read dbg ts
      cases ht : readTransitions ts with
      | error w =>
        rw [ht] at h
        have h3 := Has.outcome h ⟨leftovers l2 ++ st, ⟨name.display, a, [] ++ b, []⟩⟩
        simp only
        cases w with
        | panics => obtain ⟨s1, e⟩ := h3; simp only [e]
        | fails => obtain ⟨s1, e, h3⟩ := h3; exact ⟨e, by rw [h3]⟩
        | misread => trivial
      | ok rs =>
        rw [ht] at h
        simp only at h ⊢
        rw [h]
        simp

/-! ### Interfaces without namespaces -/

theorem allSome_cons {α β : Type} {f : α → Option β} {a : α} {as : List α} {bs : List β}
    (h : allSome f (a :: as) = some bs) :
    ∃ b bs', f a = some b ∧ allSome f as = some bs' ∧ bs = b :: bs' := by
  rw [allSome] at h
  split at h
  · rename_i b bs' h1 h2
    simp at h; subst h
    exact ⟨b, bs', h1, h2, rfl⟩
  · simp at h

theorem readTyped_clean {n : NodeTypedIdentifier} {f : Field} (h : readTyped n = some f) :
    ∃ t, readTypeW n.annotation.node.typeName = .clean [] (some t) ∧ f = .mk n.identifierName.node t := by
  unfold readTyped at h
  split at h
  · rename_i t ht
    simp at h
    exact ⟨t, ht, h.symm⟩
  · simp at h

theorem readAll_strict : ∀ (ps : List NodeTypedIdentifier) (fs : List Field),
    allSome readTyped ps = some fs → readAll ps = .ok ([], fs)
  | [], fs, h => by simp [allSome] at h; subst h; rfl
  | p :: ps, fs, h => by
    obtain ⟨f, fs, hf, hfs, rfl⟩ := allSome_cons h
    obtain ⟨t, ht, rfl⟩ := readTyped_clean hf
    rw [readAll, ht, readAll_strict ps fs hfs]
    rfl

theorem readTransitions_strict : ∀ (ts : List NodeTransitionDefinition) (rs : List Transition),
    allSome readTransition ts = some rs → readTransitions ts = .ok rs
  | [], rs, h => by simp [allSome] at h; subst h; rfl
  | t :: ts, rs, h => by
    obtain ⟨r, rs, hr, hrs, rfl⟩ := allSome_cons h
    simp only [readTransition, Option.map_eq_some_iff] at hr
    obtain ⟨fs, hfs, rfl⟩ := hr
    rw [readTransitions, readAll_strict _ _ hfs, readTransitions_strict ts rs hrs]

theorem readProgram_strict {p : NodeProgram} {c : Contract} (h : interfaceOf p = some c) :
    readProgram p = .ok c := by
  simp only [interfaceOf] at h
  split at h
  · rename_i ps fs ts h1 h2 h3
    simp at h; subst h
    simp only [readProgram, readAll_strict _ _ h1, readAll_strict _ _ h2, readTransitions_strict _ _ h3]
  · simp at h

theorem emitProgram_clean {p : NodeProgram} {c : Contract} (h : interfaceOf p = some c) :
    emitProgram dbg p = .ok c := by
  have := emitProgram_read dbg p
  rw [readProgram_strict h] at this
  exact this

/-! ### The first problem decides -/

theorem allSome_of {α β : Type} {f : α → Option β} : ∀ {l : List α}, (∀ x ∈ l, (f x).isSome) →
    ∃ bs, allSome f l = some bs
  | [], _ => ⟨[], rfl⟩
  | a :: l, h => by
    obtain ⟨b, hb⟩ := Option.isSome_iff_exists.mp (h a (by simp))
    obtain ⟨bs, hbs⟩ := allSome_of (l := l) (fun x hx => h x (by simp [hx]))
    exact ⟨b :: bs, by rw [allSome, hb, hbs]⟩

theorem readAll_ok {ps : List NodeTypedIdentifier} (h : ∀ x ∈ ps, (readTyped x).isSome) :
    ∃ fs, readAll ps = .ok ([], fs) := by
  obtain ⟨fs, hfs⟩ := allSome_of h
  exact ⟨fs, readAll_strict _ _ hfs⟩

theorem readAll_first : ∀ (pre : List NodeTypedIdentifier) (n : NodeTypedIdentifier)
    (post : List NodeTypedIdentifier) (w : Problem), (∀ x ∈ pre, (readTyped x).isSome) →
    problemOf n = some w → readAll (pre ++ n :: post) = .error w
  | [], n, post, w, _, h => by
    rcases readAll_cons n post with ⟨w', h1, h2⟩ | ⟨l, t, h1, h2⟩
    · rw [h] at h1; simp at h1; subst h1; exact h2
    · simp [problemOf, h1] at h
  | p :: pre, n, post, w, hp, h => by
    obtain ⟨f, hf⟩ := Option.isSome_iff_exists.mp (hp p (by simp))
    obtain ⟨t, ht, _⟩ := readTyped_clean hf
    rw [List.cons_append, readAll, ht]
    simp only [readAll_first pre n post w (fun x hx => hp x (by simp [hx])) h]

theorem readTransitions_first : ∀ (ts : List NodeTransitionDefinition) (pre : List NodeTypedIdentifier)
    (n : NodeTypedIdentifier) (post : List NodeTypedIdentifier) (w : Problem),
    (ts.flatMap fun t => typedOf t.parameters.node.parameters) = pre ++ n :: post →
    (∀ x ∈ pre, (readTyped x).isSome) → problemOf n = some w → readTransitions ts = .error w
  | [], pre, n, post, w, h, _, _ => by simp at h
  | t :: ts, pre, n, post, w, h, hp, hn => by
    rw [List.flatMap_cons] at h
    have later : ∀ pre', (ts.flatMap fun t => typedOf t.parameters.node.parameters) = pre' ++ n :: post →
        pre = typedOf t.parameters.node.parameters ++ pre' → readTransitions (t :: ts) = .error w := by
      rintro pre' h' rfl
      obtain ⟨fs, hfs⟩ := readAll_ok (ps := typedOf t.parameters.node.parameters)
        (fun x hx => hp x (by simp [hx]))
      rw [readTransitions, hfs]
      simp only [readTransitions_first ts pre' n post w h' (fun x hx => hp x (by simp [hx])) hn]
    rcases List.append_eq_append_iff.mp h with ⟨a', ha, hb⟩ | ⟨c', hc, hd⟩
    · exact later a' hb ha
    · cases c' with
      | nil => exact later [] (by simpa using hd.symm) (by simpa using hc.symm)
      | cons x c' =>
        simp only [List.cons_append, List.cons.injEq] at hd
        obtain ⟨rfl, rfl⟩ := hd
        rw [readTransitions, hc, readAll_first pre n c' w hp hn]

theorem readProgram_first {p : NodeProgram} {pre post : List NodeTypedIdentifier}
    {n : NodeTypedIdentifier} {w : Problem} (h : interfaceTyped p = pre ++ n :: post)
    (hp : ∀ x ∈ pre, (readTyped x).isSome) (hn : problemOf n = some w) :
    readProgram p = .error w := by
  simp only [interfaceTyped] at h
  simp only [readProgram]
  generalize typedOf p.contractDefinition.node.parameters.node.parameters = ps at *
  generalize fieldTypedOf p.contractDefinition.node.fields = fs at *
  generalize transitionsOf p.contractDefinition.node.components = ts at *
  rw [List.append_assoc] at h
  have inTrans : ∀ pre', (ts.flatMap fun t => typedOf t.parameters.node.parameters) = pre' ++ n :: post →
      pre = ps ++ (fs ++ pre') →
      (match readAll ps with
        | .error w => (.error w : Except Problem Contract)
        | .ok (_, ps) =>
          match readAll fs with
          | .error w => .error w
          | .ok (_, fs) =>
            match readTransitions ts with
            | .error w => .error w
            | .ok ts => .ok ⟨p.contractDefinition.node.contractName.node.display, ps, fs, ts⟩) =
        .error w := by
    rintro pre' h' rfl
    obtain ⟨a, ha⟩ := readAll_ok (ps := ps) (fun x hx => hp x (by simp [hx]))
    obtain ⟨b, hb⟩ := readAll_ok (ps := fs) (fun x hx => hp x (by simp [hx]))
    simp only [ha, hb, readTransitions_first ts pre' n post w h' (fun x hx => hp x (by simp [hx])) hn]
  have inFields : ∀ pre', fs ++ (ts.flatMap fun t => typedOf t.parameters.node.parameters) =
      pre' ++ n :: post → pre = ps ++ pre' →
      (match readAll ps with
        | .error w => (.error w : Except Problem Contract)
        | .ok (_, ps) =>
          match readAll fs with
          | .error w => .error w
          | .ok (_, fs) =>
            match readTransitions ts with
            | .error w => .error w
            | .ok ts => .ok ⟨p.contractDefinition.node.contractName.node.display, ps, fs, ts⟩) =
        .error w := by
    rintro pre' h' rfl
    rcases List.append_eq_append_iff.mp h' with ⟨a', ha, hb⟩ | ⟨c', hc, hd⟩
    · exact inTrans a' hb (by rw [ha])
    · cases c' with
      | nil => exact inTrans [] (by simpa using hd.symm) (by simp at hc; simp [hc])
      | cons x c' =>
        simp only [List.cons_append, List.cons.injEq] at hd
        obtain ⟨rfl, rfl⟩ := hd
        obtain ⟨a, ha⟩ := readAll_ok (ps := ps) (fun x hx => hp x (by simp [hx]))
        simp only [ha, hc, readAll_first pre' n c' w (fun x hx => hp x (by simp [hx])) hn]
  rcases List.append_eq_append_iff.mp h with ⟨a', ha, hb⟩ | ⟨c', hc, hd⟩
  · exact inFields a' hb ha
  · cases c' with
    | nil => exact inFields [] (by simpa using hd.symm) (by simpa using hc.symm)
    | cons x c' =>
      simp only [List.cons_append, List.cons.injEq] at hd
      obtain ⟨rfl, _⟩ := hd
      simp only [hc, readAll_first pre n c' w hp hn]

/-! ### Invariants for arbitrary types -/

/-- names of the components waiting on the stack, top first -/
def comps : List StackObj → List Str
  | [] => []
  | .ident n .componentName :: st => n :: comps st
  | _ :: st => comps st

/-- The computation does not touch the contract under construction and pushes no component name. -/
def Tame {α : Type} (m : M SrState α) : Prop :=
  ∀ s, (m s).1.contract = s.contract ∧ comps (m s).1.stack <:+ comps s.stack

theorem Tame.bind {α β : Type} {m : M SrState α} {f : α → M SrState β} (hm : Tame m)
    (hf : ∀ a, Tame (f a)) : Tame (m.bind f) := by
  intro s
  obtain ⟨h1, h2⟩ := hm s
  simp only [M.bind]
  cases h : m s with
  | mk s1 r =>
    rw [h] at h1 h2
    cases r with
    | ok a =>
      obtain ⟨h3, h4⟩ := hf a s1
      exact ⟨h3.trans h1, h4.trans h2⟩
    | err e => exact ⟨h1, h2⟩
    | panic => exact ⟨h1, h2⟩

theorem Tame.pure {α : Type} (a : α) : Tame (M.pure a : M SrState α) :=
  fun _ => ⟨rfl, List.suffix_refl _⟩

theorem Tame.panic {α : Type} : Tame (M.panic : M SrState α) :=
  fun _ => ⟨rfl, List.suffix_refl _⟩

theorem Tame.swallow {m : M SrState Unit} (h : Tame m) : Tame (swallow m) := by
  intro s
  have := h s
  simp only [Verif.swallow]
  cases hm : m s with
  | mk s1 r => rw [hm] at this; cases r <;> exact this

theorem comps_cons_suffix (x : StackObj) (st : List StackObj) : comps st <:+ comps (x :: st) := by
  cases x with
  | ident n k =>
    cases k with
    | unknown => exact List.suffix_refl _
    | componentName => exact List.suffix_cons _ _
  | varDecl f => exact List.suffix_refl _
  | typeDef t => exact List.suffix_refl _

theorem Tame.popIdent : Tame (popIdent dbg) := by
  intro s
  obtain ⟨st, c⟩ := s
  cases st with
  | nil => exact ⟨rfl, List.suffix_refl _⟩
  | cons x st => cases x <;> exact ⟨rfl, comps_cons_suffix _ _⟩

theorem Tame.popType : Tame (popType dbg) := by
  intro s
  obtain ⟨st, c⟩ := s
  cases st with
  | nil => exact ⟨rfl, List.suffix_refl _⟩
  | cons x st => cases x <;> exact ⟨rfl, comps_cons_suffix _ _⟩

theorem Tame.popVar : Tame (popVar dbg) := by
  intro s
  obtain ⟨st, c⟩ := s
  cases st with
  | nil => exact ⟨rfl, List.suffix_refl _⟩
  | cons x st => cases x <;> exact ⟨rfl, comps_cons_suffix _ _⟩

theorem Tame.pushType (t : SrType) : Tame (SrState.pushObj (.typeDef t)) :=
  fun _ => ⟨rfl, List.suffix_refl _⟩

theorem Tame.pushVar (f : Field) : Tame (SrState.pushObj (.varDecl f)) :=
  fun _ => ⟨rfl, List.suffix_refl _⟩

theorem Tame.pushId (n : Str) : Tame (SrState.pushObj (.ident n .unknown)) :=
  fun _ => ⟨rfl, List.suffix_refl _⟩

theorem Tame.intoType (t : SrType) : Tame (intoType t) := by
  intro s
  simp only [Verif.intoType]
  cases t.toTy <;> exact ⟨rfl, List.suffix_refl _⟩

theorem Tame.identToType : Tame (identToType dbg) :=
  Tame.bind (Tame.popIdent dbg) fun _ => Tame.pushType _

theorem Tame.makeMap : Tame (makeMap dbg) :=
  Tame.bind (Tame.popType dbg) fun _ => Tame.bind (Tame.popType dbg) fun _ => Tame.pushType _

theorem Tame.typeName (n : NodeTypeNameIdentifier) : Tame (evTypeName n) := by
  cases n with
  | byteStringType b => exact Tame.pushId _
  | eventType => exact Tame.pure _
  | typeOrEnumLikeIdentifier s => exact Tame.pushId _

theorem Tame.meta (n : NodeMetaIdentifier) : Tame (evMeta n) := by
  cases n with
  | metaName n => exact Tame.typeName _
  | metaNameInNamespace a b => exact Tame.bind (Tame.typeName _) fun _ => Tame.typeName _
  | metaNameInHexspace a b => exact Tame.typeName _
  | byteString => exact Tame.pushId _

theorem Tame.name (n : NodeMetaIdentifier) : Tame ((evMeta n).bind fun _ => Verif.identToType dbg) :=
  Tame.bind (Tame.meta n) fun _ => Tame.identToType dbg

mutual
theorem Tame.keyW : ∀ w : W NodeTypeMapKey, Tame (evKeyW dbg w)
  | ⟨n, _, _⟩ => by
    cases n <;> simp only [evKeyW, evKey]
    · exact Tame.name dbg _
    · exact Tame.name dbg _
    · rename_i a; exact Tame.bind (Tame.addrW a) fun _ => Tame.identToType dbg
    · rename_i a; exact Tame.bind (Tame.addrW a) fun _ => Tame.identToType dbg
theorem Tame.valueW : ∀ w : W NodeTypeMapValue, Tame (evValueW dbg w)
  | ⟨n, _, _⟩ => by
    cases n with
    | mapValueTypeOrEnumLikeIdentifier m => simp only [evValueW, evValue]; exact Tame.name dbg _
    | mapKeyValue e =>
      obtain ⟨⟨k, v⟩, _, _⟩ := e
      simp only [evValueW, evValue, evEntryW, evEntry]
      exact Tame.bind (Tame.bind (Tame.keyW k) fun _ => Tame.valueW v) fun _ => Tame.makeMap dbg
    | mapValueParenthesizedType t => simp only [evValueW, evValue]; exact Tame.mvW t
    | mapValueAddressType a => simp only [evValueW, evValue]; exact Tame.addrW a
theorem Tame.argW : ∀ w : W NodeTypeArgument, Tame (evArgW dbg w)
  | ⟨n, _, _⟩ => by
    cases n with
    | enclosedTypeArgument t => simp only [evArgW, evArg]; exact Tame.typeW t
    | genericTypeArgument m => simp only [evArgW, evArg]; exact Tame.name dbg _
    | templateTypeArgument x => simp only [evArgW, evArg]; exact Tame.panic
    | addressTypeArgument a => simp only [evArgW, evArg]; exact Tame.addrW a
    | mapTypeArgument k v =>
      simp only [evArgW, evArg]
      exact Tame.bind (Tame.keyW k) fun _ => Tame.bind (Tame.valueW v) fun _ => Tame.makeMap dbg
theorem Tame.typeW : ∀ w : W NodeScillaType, Tame (evTypeW dbg w)
  | ⟨n, _, _⟩ => by
    cases n with
    | genericTypeWithArgs m args =>
      cases args with
      | nil => simp only [evTypeW, evType]; exact Tame.name dbg _
      | cons a args =>
        simp only [evTypeW, evType]
        exact Tame.bind (Tame.meta _) fun _ => Tame.bind (Tame.identToType dbg) fun _ =>
          Tame.bind (Tame.popType dbg) fun main =>
            Tame.bind (Tame.args (a :: args) main) fun _ => Tame.pushType _
    | mapType k v =>
      simp only [evTypeW, evType]
      exact Tame.bind (Tame.keyW k) fun _ => Tame.bind (Tame.valueW v) fun _ => Tame.makeMap dbg
    | functionType a b => simp only [evTypeW, evType]; exact Tame.panic
    | enclosedType t => simp only [evTypeW, evType]; exact Tame.typeW t
    | scillaAddresseType a => simp only [evTypeW, evType]; exact Tame.addrW a
    | polyFunctionType x t => simp only [evTypeW, evType]; exact Tame.panic
    | typeVarType x => simp only [evTypeW, evType]; exact Tame.panic
theorem Tame.addrW : ∀ w : W NodeAddressType, Tame (evAddrW dbg w)
  | ⟨.mk i tag fs, _, _⟩ => by
    simp only [evAddrW, evAddr]
    exact Tame.swallow (Tame.bind (Tame.typeName _) fun _ => Tame.bind (Tame.identToType dbg) fun _ =>
      Tame.bind (Tame.popType dbg) fun _ => Tame.bind (Tame.fields fs) fun _ => Tame.pushType _)
theorem Tame.mvaW : ∀ w : W NodeTypeMapValueArguments, Tame (evMvaW dbg w)
  | ⟨n, _, _⟩ => by
    cases n with
    | enclosedTypeMapValue t => simp only [evMvaW, evMva]; exact Tame.mvW t
    | genericMapValueArgument m => simp only [evMvaW, evMva]; exact Tame.name dbg _
    | mapKeyValueType k v => simp only [evMvaW, evMva]; exact Tame.panic
theorem Tame.mvW : ∀ w : W NodeTypeMapValueAllowingTypeArguments, Tame (evMvW dbg w)
  | ⟨n, _, _⟩ => by
    cases n with
    | typeMapValueNoArgs v => simp only [evMvW, evMv]; exact Tame.valueW v
    | typeMapValueWithArgs m args =>
      cases args with
      | nil => simp only [evMvW, evMv]; exact Tame.name dbg _
      | cons a args =>
        simp only [evMvW, evMv]
        exact Tame.bind (Tame.meta _) fun _ => Tame.bind (Tame.identToType dbg) fun _ =>
          Tame.bind (Tame.popType dbg) fun main =>
            Tame.bind (Tame.mvas (a :: args) main) fun _ => Tame.pushType _
theorem Tame.args : ∀ (l : List (W NodeTypeArgument)) (main : SrType), Tame (evArgs dbg l main)
  | [], main => by rw [evArgs]; exact Tame.pure _
  | a :: as, main => by
    rw [evArgs]
    exact Tame.bind (Tame.argW a) fun _ => Tame.bind (Tame.popType dbg) fun _ => Tame.args as _
theorem Tame.mvas : ∀ (l : List (W NodeTypeMapValueArguments)) (main : SrType),
    Tame (evMvas dbg l main)
  | [], main => by rw [evMvas]; exact Tame.pure _
  | a :: as, main => by
    rw [evMvas]
    exact Tame.bind (Tame.mvaW a) fun _ => Tame.bind (Tame.popType dbg) fun _ => Tame.mvas as _
theorem Tame.fields : ∀ (l : List (W NodeAddressTypeField)), Tame (evFields dbg l)
  | [] => by rw [evFields]; exact Tame.pure _
  | ⟨.mk ⟨i, _, _⟩ t, _, _⟩ :: fs => by
    rw [evFields]
    have h1 := Tame.typeW t
    have h2 := Tame.fields fs
    refine Tame.bind ?_ fun _ => Tame.bind (Tame.popVar dbg) fun _ => Tame.bind h2 fun _ => Tame.pure _
    cases i with
    | variableName x =>
      simp only [evFieldW, evField]
      exact Tame.bind h1 fun _ => Tame.bind (Tame.popType dbg) fun _ =>
        Tame.bind (Tame.intoType _) fun _ => Tame.pushVar _
    | specialIdentifier x => simp only [evFieldW, evField]; exact Tame.pure _
    | variableInNamespace x y => simp only [evFieldW, evField]; exact Tame.pure _
end

theorem Tame.typed (n : NodeTypedIdentifier) : Tame (evTyped dbg n) :=
  Tame.bind (Tame.typeW dbg _) fun _ => Tame.bind (Tame.popType dbg) fun _ =>
    Tame.bind (Tame.intoType _) fun _ => Tame.pushVar _

/-- inversion of sequencing -/
theorem bind_ok {α β : Type} {m : M SrState α} {f : α → M SrState β} {s s2 : SrState} {b : β}
    (h : m.bind f s = (s2, .ok b)) : ∃ s1 a, m s = (s1, .ok a) ∧ f a s1 = (s2, .ok b) := by
  simp only [M.bind] at h
  cases hm : m s with
  | mk s1 r =>
    rw [hm] at h
    cases r with
    | ok a => exact ⟨s1, a, rfl, h⟩
    | err e => simp at h
    | panic => simp at h

def Field.name : Field → Str
  | .mk n _ => n

/-- A typed identifier followed by the pop of a declaration yields a field with its name. -/
theorem typed_pop {n : NodeTypedIdentifier} {s s2 : SrState} {x : Field}
    (h : ((evTyped dbg n).bind fun _ => popVar dbg) s = (s2, .ok x)) :
    x.name = n.identifierName.node ∧ s2.contract = s.contract ∧ comps s2.stack <:+ comps s.stack := by
  have ht := (Tame.bind (Tame.typed dbg n) fun _ => Tame.popVar dbg) s
  rw [h] at ht
  refine ⟨?_, ht⟩
  obtain ⟨s1, u, h1, h2⟩ := bind_ok h
  rw [evTyped] at h1
  obtain ⟨s3, u3, _, h4⟩ := bind_ok h1
  obtain ⟨s5, u5, _, h6⟩ := bind_ok h4
  obtain ⟨s7, u7, _, h8⟩ := bind_ok h6
  simp only [SrState.pushObj, Prod.mk.injEq] at h8
  obtain ⟨rfl, _⟩ := h8
  simp only [popVar, Prod.mk.injEq, Outcome.ok.injEq] at h2
  rw [← h2.2]
  rfl

theorem evInitT_ok : ∀ (ps : List NodeTypedIdentifier) (s s2 : SrState) (u : Unit),
    evInitT dbg ps s = (s2, .ok u) →
    ∃ fs : List Field, fs.map Field.name = ps.map (fun p => p.identifierName.node) ∧
      s2.contract = { s.contract with initParams := s.contract.initParams ++ fs } ∧
      comps s2.stack <:+ comps s.stack
  | [], s, s2, u, h => by
    simp only [evInitT, M.pure, Prod.mk.injEq] at h
    obtain ⟨rfl, _⟩ := h
    exact ⟨[], rfl, by simp, List.suffix_refl _⟩
  | p :: ps, s, s2, u, h => by
    rw [evInitT, ← M.bind_assoc] at h
    obtain ⟨s1, x, h1, h2⟩ := bind_ok h
    obtain ⟨hx, hc, hs⟩ := typed_pop dbg h1
    obtain ⟨s3, v, h3, h4⟩ := bind_ok h2
    simp only [Prod.mk.injEq] at h3
    obtain ⟨rfl, _⟩ := h3
    obtain ⟨fs, hf, hc2, hs2⟩ := evInitT_ok ps _ _ _ h4
    refine ⟨x :: fs, by simp [hf, hx], ?_, hs2.trans hs⟩
    rw [hc2, hc]; simp

theorem evAgainT_ok : ∀ (ps : List NodeTypedIdentifier), Tame (evAgainT dbg ps)
  | [] => Tame.pure _
  | p :: ps => Tame.bind (Tame.typed dbg p) fun _ => evAgainT_ok ps

theorem evParamsT_ok : ∀ (ps : List NodeTypedIdentifier) (s s2 : SrState) (fs : List Field),
    evParamsT dbg ps s = (s2, .ok fs) →
    fs.map Field.name = ps.map (fun p => p.identifierName.node) ∧
      s2.contract = s.contract ∧ comps s2.stack <:+ comps s.stack
  | [], s, s2, fs, h => by
    simp only [evParamsT, M.pure, Prod.mk.injEq, Outcome.ok.injEq] at h
    obtain ⟨rfl, rfl⟩ := h
    exact ⟨rfl, rfl, List.suffix_refl _⟩
  | p :: ps, s, s2, fs, h => by
    rw [evParamsT, ← M.bind_assoc] at h
    obtain ⟨s1, x, h1, h2⟩ := bind_ok h
    obtain ⟨hx, hc, hs⟩ := typed_pop dbg h1
    obtain ⟨s3, v, h3, h4⟩ := bind_ok h2
    simp only [M.pure, Prod.mk.injEq, Outcome.ok.injEq] at h4
    obtain ⟨rfl, rfl⟩ := h4
    obtain ⟨hf, hc2, hs2⟩ := evParamsT_ok ps _ _ _ h3
    exact ⟨by simp [hf, hx], hc2.trans hc, hs2.trans hs⟩

theorem evFieldsT_ok : ∀ (ps : List NodeTypedIdentifier) (s s2 : SrState) (u : Unit),
    evFieldsT dbg ps s = (s2, .ok u) →
    ∃ fs : List Field, fs.map Field.name = ps.map (fun p => p.identifierName.node) ∧
      s2.contract = { s.contract with fields := s.contract.fields ++ fs } ∧
      comps s2.stack <:+ comps s.stack
  | [], s, s2, u, h => by
    simp only [evFieldsT, M.pure, Prod.mk.injEq] at h
    obtain ⟨rfl, _⟩ := h
    exact ⟨[], rfl, by simp, List.suffix_refl _⟩
  | p :: ps, s, s2, u, h => by
    rw [evFieldsT, ← M.bind_assoc] at h
    obtain ⟨s1, x, h1, h2⟩ := bind_ok h
    obtain ⟨hx, hc, hs⟩ := typed_pop dbg h1
    obtain ⟨s3, v, h3, h4⟩ := bind_ok h2
    simp only [addField, Prod.mk.injEq] at h3
    obtain ⟨rfl, _⟩ := h3
    obtain ⟨fs, hf, hc2, hs2⟩ := evFieldsT_ok ps _ _ _ h4
    refine ⟨x :: fs, by simp [hf, hx], ?_, hs2.trans hs⟩
    rw [hc2, hc]; simp

theorem popIdent_ok {s s2 : SrState} {x : Str × IdKind} (h : popIdent dbg s = (s2, .ok x)) :
    s.stack = .ident x.1 x.2 :: s2.stack ∧ s2.contract = s.contract := by
  obtain ⟨st, c⟩ := s
  cases st with
  | nil => simp [popIdent] at h
  | cons y st =>
    cases y with
    | ident n k =>
      simp only [popIdent, Prod.mk.injEq, Outcome.ok.injEq] at h
      obtain ⟨rfl, rfl⟩ := h
      exact ⟨rfl, rfl⟩
    | varDecl f => simp [popIdent] at h
    | typeDef t => simp [popIdent] at h

theorem evTransT_ok {name : Str} {ps : List NodeTypedIdentifier} {s s2 : SrState} {u : Unit}
    (hs : comps s.stack = []) (h : evTransT dbg name ps s = (s2, .ok u)) :
    ∃ fs : List Field, fs.map Field.name = ps.map (fun p => p.identifierName.node) ∧
      s2.contract = { s.contract with transitions := s.contract.transitions ++ [⟨name, fs⟩] } ∧
      comps s2.stack = [] := by
  rw [evTransT] at h
  obtain ⟨s1, x, h1, h⟩ := bind_ok h
  simp only [SrState.pushObj, Prod.mk.injEq] at h1
  obtain ⟨rfl, _⟩ := h1
  obtain ⟨s3, fs, h3, h⟩ := bind_ok h
  obtain ⟨hf, hc, hs3⟩ := evParamsT_ok dbg _ _ _ _ h3
  obtain ⟨s4, x, h4, h⟩ := bind_ok h
  obtain ⟨hst, hc4⟩ := popIdent_ok dbg h4
  obtain ⟨n, k⟩ := x
  split at h
  · rename_i hk
    simp only at hk; subst hk
    simp only [addTransition, Prod.mk.injEq] at h
    obtain ⟨rfl, _⟩ := h
    rw [hst] at hs3
    simp only [comps, hs] at hs3
    obtain ⟨t, ht⟩ := hs3
    have h0 : t = [] ∧ n = name ∧ comps s4.stack = [] := by
      cases t with
      | nil => simpa using ht
      | cons a t => simp at ht
    obtain ⟨_, rfl, h5⟩ := h0
    refine ⟨fs, hf, ?_, h5⟩
    rw [hc4, hc]
  · simp [M.panic] at h

theorem evTranssT_ok : ∀ (ts : List NodeTransitionDefinition) (s s2 : SrState) (u : Unit),
    comps s.stack = [] → evTranssT dbg ts s = (s2, .ok u) →
    ∃ rs : List Transition,
      rs.map (fun r => (r.name, r.params.map Field.name)) = ts.map (fun t =>
        (componentName t.name.node,
          (typedOf t.parameters.node.parameters).map fun p => p.identifierName.node)) ∧
      s2.contract = { s.contract with transitions := s.contract.transitions ++ rs }
  | [], s, s2, u, _, h => by
    simp only [evTranssT, M.pure, Prod.mk.injEq] at h
    obtain ⟨rfl, _⟩ := h
    exact ⟨[], rfl, by simp⟩
  | t :: ts, s, s2, u, hs, h => by
    rw [evTranssT] at h
    obtain ⟨s1, x, h1, h2⟩ := bind_ok h
    obtain ⟨fs, hf, hc, hs1⟩ := evTransT_ok dbg hs h1
    obtain ⟨rs, hr, hc2⟩ := evTranssT_ok ts _ _ _ hs1 h2
    refine ⟨⟨componentName t.name.node, fs⟩ :: rs, by simp [hr, hf], ?_⟩
    rw [hc2, hc]; simp

/-- Whatever the types are, a successful emission has the names of the interface. -/
theorem emitProgram_ok {p : NodeProgram} {c : Contract} (h : emitProgram dbg p = .ok c) :
    c.name = p.contractDefinition.node.contractName.node.display ∧
    c.initParams.map Field.name = (typedOf p.contractDefinition.node.parameters.node.parameters).map
      (fun p => p.identifierName.node) ∧
    c.fields.map Field.name = (fieldTypedOf p.contractDefinition.node.fields).map
      (fun p => p.identifierName.node) ∧
    c.transitions.map (fun r => (r.name, r.params.map Field.name)) =
      (transitionsOf p.contractDefinition.node.components).map (fun t =>
        (componentName t.name.node,
          (typedOf t.parameters.node.parameters).map fun p => p.identifierName.node)) := by
  rw [emitProgram_ev, evContract_T] at h
  generalize typedOf p.contractDefinition.node.parameters.node.parameters = ps at *
  generalize fieldTypedOf p.contractDefinition.node.fields = fs at *
  generalize transitionsOf p.contractDefinition.node.components = ts at *
  generalize p.contractDefinition.node.contractName.node = name at *
  cases hr : evIface dbg name ps fs ts SrState.init with
  | mk sf r =>
    rw [hr] at h
    cases r with
    | err e => simp at h
    | panic => simp at h
    | ok u =>
      simp only [Outcome.ok.injEq] at h
      subst h
      rw [evIface] at hr
      obtain ⟨s1, u1, h1, k1⟩ := bind_ok hr
      obtain ⟨s2, u2, h2, k2⟩ := bind_ok k1
      obtain ⟨s3, u3, h3, k3⟩ := bind_ok k2
      obtain ⟨s4, u4, h4, k4⟩ := bind_ok k3
      obtain ⟨s5, u5, h5, k5⟩ := bind_ok k4
      have t1 := Tame.typeName name SrState.init
      rw [h1] at t1
      simp only [setName, Prod.mk.injEq] at h2
      obtain ⟨rfl, _⟩ := h2
      obtain ⟨as, ha, hca, hsa⟩ := evInitT_ok dbg _ _ _ _ h3
      have t4 := evAgainT_ok dbg ps s3
      rw [h4] at t4
      obtain ⟨bs, hb, hcb, hsb⟩ := evFieldsT_ok dbg _ _ _ _ h5
      have hnil : comps s5.stack = [] := by
        have := ((hsb.trans t4.2).trans hsa).trans t1.2
        exact List.suffix_nil.mp this
      obtain ⟨rs, hc, hcc⟩ := evTranssT_ok dbg _ _ _ _ hnil k5
      have e1 : s1.contract = ⟨[], [], [], []⟩ := t1.1
      rw [hcc, hcb, t4.1, hca]
      simp only [e1, List.nil_append]
      exact ⟨trivial, ha, hb, hc⟩

end Verif
