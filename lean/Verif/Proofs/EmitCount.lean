import Verif.Spec.EmitLog
import Verif.Proofs.WalkRun
import Verif.Proofs.NodeCount
/-
The number of calls a walk and the emitter make.
-/
namespace Verif

set_option linter.unusedSimpArgs false

/-! ### The recording emitter is the emitter -/

section plain
variable (dbg : StackObj → Str)

theorem onSr_plain {α : Type} (m : M SrState α) : (onSr m : M SrState α) = m := rfl

theorem collectArgsL_plain {α : Type} (f : α → M SrState TR) : ∀ (l : List α) (t : SrType),
    collectArgsL dbg f l t = collectArgs dbg f l t
  | [], _ => rfl
  | a :: as, t => by
    simp only [collectArgsL, collectArgs, onSr_plain]
    congr; funext t; exact collectArgsL_plain f as _

theorem genericTypeL_plain {α : Type} (m : M SrState TR) (f : α → M SrState TR) (l : List α) :
    genericTypeL dbg m f l = genericType dbg m f l := by
  cases l <;> simp only [genericTypeL, genericType, onSr_plain, collectArgsL_plain]

theorem collectVarsL_plain {α : Type} (f : α → M SrState TR) : ∀ l : List α,
    collectVarsL dbg f l = collectVars dbg f l
  | [] => rfl
  | a :: as => by simp only [collectVarsL, collectVars, onSr_plain, collectVarsL_plain f as]

theorem collectInitParamsL_plain {α : Type} (f : α → M SrState TR) : ∀ l : List α,
    collectInitParamsL dbg f l = collectInitParams dbg f l
  | [] => rfl
  | a :: as => by
    simp only [collectInitParamsL, collectInitParams, onSr_plain, collectInitParamsL_plain f as]

theorem emitSrL_plain (V : Emitter SrState) (mode : Mode) (n : AnyNode) :
    emitSrL dbg V mode n = emitSr dbg V mode n := by
  cases n <;> simp only [emitSrL, emitSr, onSr_plain, genericTypeL_plain, collectVarsL_plain,
    collectInitParamsL_plain]
  case addrField n =>
    obtain ⟨⟨i, a, b⟩, t⟩ := n
    cases mode <;> cases i <;> rfl
  all_goals (rename_i n; cases n <;> cases mode <;> rfl)

theorem emitterL_plain : ∀ k, emitterL dbg (fun _ _ s => s) k = srEmitter dbg k
  | 0 => rfl
  | k + 1 => by
    simp only [emitterL, srEmitter, emitterL_plain k, emitSrL_plain]

end plain

/-! ### Runs with a record -/

section rel
variable {σ τ : Type}

/-- `m'` does what `m` does, and adds at most `c` entries to the record -/
def Rel {α : Type} (c : Nat) (m : M σ α) (m' : M (σ × List τ) α) : Prop :=
  ∀ s l, (m' (s, l)).1.1 = (m s).1 ∧ (m' (s, l)).2 = (m s).2 ∧
    ∃ new, (m' (s, l)).1.2 = l ++ new ∧ new.length ≤ c

/-- the result is never `Continue` -/
def Stops' (m : M σ TR) : Prop := ∀ s, (m s).2 ≠ .ok .continue_

theorem Rel.run {α : Type} {c : Nat} {m : M σ α} {m' : M (σ × List τ) α} (h : Rel c m m') (s : σ)
    (l : List τ) : ∃ new, m' (s, l) = (((m s).1, l ++ new), (m s).2) ∧ new.length ≤ c := by
  obtain ⟨h1, h2, new, h3, h4⟩ := h s l
  refine ⟨new, ?_, h4⟩
  rcases h5 : m' (s, l) with ⟨⟨s1, l1⟩, r⟩
  rw [h5] at h1 h2 h3
  simp only at h1 h2 h3
  subst h1 h2 h3
  rfl

theorem Rel.of {α : Type} {c : Nat} {m : M σ α} {m' : M (σ × List τ) α}
    (h : ∀ s l, ∃ new, m' (s, l) = (((m s).1, l ++ new), (m s).2) ∧ new.length ≤ c) : Rel c m m' := by
  intro s l
  obtain ⟨new, h1, h2⟩ := h s l
  rw [h1]
  exact ⟨rfl, rfl, new, rfl, h2⟩

theorem Rel.mono {α : Type} {c d : Nat} {m : M σ α} {m' : M (σ × List τ) α} (h : Rel c m m') (hcd : c ≤ d) :
    Rel d m m' := by
  intro s l
  obtain ⟨h1, h2, new, h3, h4⟩ := h s l
  exact ⟨h1, h2, new, h3, Nat.le_trans h4 hcd⟩

theorem Rel.pure {α : Type} (a : α) : Rel 0 (M.pure a : M σ α) (M.pure a : M (σ × List τ) α) :=
  fun _ _ => ⟨rfl, rfl, [], by simp [M.pure], by simp⟩

theorem Rel.cont : Rel 0 (M.cont : M σ TR) (M.cont : M (σ × List τ) TR) := Rel.pure _

theorem Rel.skip : Rel 0 (M.skip : M σ TR) (M.skip : M (σ × List τ) TR) := Rel.pure _

theorem Rel.panic {α : Type} : Rel 0 (M.panic : M σ α) (M.panic : M (σ × List τ) α) :=
  fun _ _ => ⟨rfl, rfl, [], by simp [M.panic], by simp⟩

theorem Rel.bind {α β : Type} {c d : Nat} {m : M σ α} {m' : M (σ × List τ) α} {f : α → M σ β}
    {f' : α → M (σ × List τ) β} (h : Rel c m m') (hf : ∀ a, Rel d (f a) (f' a)) :
    Rel (c + d) (m.bind f) (m'.bind f') := by
  refine .of fun s l => ?_
  obtain ⟨new, h1, h2⟩ := h.run s l
  simp only [M.bind, h1]
  rcases h3 : m s with ⟨s1, r⟩
  rcases r with a | e | _
  · obtain ⟨new2, h4, h5⟩ := (hf a).run s1 (l ++ new)
    refine ⟨new ++ new2, ?_, by rw [List.length_append]; omega⟩
    simp only [h4, List.append_assoc]
  · exact ⟨new, rfl, by omega⟩
  · exact ⟨new, rfl, by omega⟩

theorem Rel.andThen {α β : Type} {c d : Nat} {m : M σ α} {m' : M (σ × List τ) α} {f : M σ β}
    {f' : M (σ × List τ) β} (h : Rel c m m') (hf : Rel d f f') :
    Rel (c + d) (m.andThen f) (m'.andThen f') := h.bind fun _ => hf

variable {E : Emitter σ} {E' : Emitter (σ × List τ)}

/-- the position hooks leave the record alone -/
def SameHooks (E : Emitter σ) (E' : Emitter (σ × List τ)) : Prop :=
  (∀ a b s l, E'.push a b (s, l) = (E.push a b s, l)) ∧ ∀ s l, E'.pop (s, l) = (E.pop s, l)

theorem Rel.child {c : Nat} {m : M σ TR} {m' : M (σ × List τ) TR} (hp : SameHooks E E') (h : Rel c m m')
    (pos : Option (Pos × Pos)) : Rel c (walkChild E pos m) (walkChild E' pos m') := by
  rcases pos with _ | ⟨a, b⟩
  · exact h
  · refine .of fun s l => ?_
    obtain ⟨new, h1, h2⟩ := h.run (E.push a b s) l
    refine ⟨new, ?_, h2⟩
    simp only [walkChild, withPos, hp.1, h1]
    rcases h3 : m (E.push a b s) with ⟨s1, r⟩
    cases r <;> simp only [hp.2]

/-- the sum of a bound over children -/
def kidsB (B : AnyNode → Nat) : List Kid → Nat
  | [] => 0
  | .child _ _ c :: ks => B c + kidsB B ks
  | .push _ _ :: ks => kidsB B ks
  | .panic :: ks => kidsB B ks

theorem Rel.kids {B : AnyNode → Nat} {V : AnyNode → M σ TR} {V' : AnyNode → M (σ × List τ) TR}
    (hp : SameHooks E E') (only : Option Str) (ks : List Kid)
    (h : ∀ how pos c, .child how pos c ∈ ks → Rel (B c) (V c) (V' c)) :
    Rel (kidsB B ks) (walkKids E only V ks) (walkKids E' only V' ks) := by
  induction ks with
  | nil => exact Rel.pure _
  | cons k ks ih =>
    have ih := ih fun how pos c hc => h how pos c (by simp [hc])
    cases k with
    | panic => exact Rel.mono Rel.panic (Nat.zero_le _)
    | push a b =>
      refine .of fun s l => ?_
      simp only [walkKids, hp.1]
      exact ih.run _ _
    | child how pos c =>
      refine .of fun s l => ?_
      obtain ⟨new, h1, h2⟩ := (Rel.child hp (h how pos c (by simp)) pos).run s l
      simp only [walkKids, h1, kidsB]
      rcases h3 : walkChild E pos (V c) s with ⟨s1, r⟩
      have goOn : ∃ new', walkKids E' only V' ks (s1, l ++ new) =
          (((walkKids E only V ks s1).1, l ++ new'), (walkKids E only V ks s1).2) ∧
            new'.length ≤ B c + kidsB B ks := by
        obtain ⟨new2, h4, h5⟩ := ih.run s1 (l ++ new)
        refine ⟨new ++ new2, by rw [h4, List.append_assoc], by rw [List.length_append]; omega⟩
      have stop : ∀ r : Outcome KidsEnd, ∃ new', (((s1, l ++ new), r) : (σ × List τ) × Outcome KidsEnd) =
          ((s1, l ++ new'), r) ∧ new'.length ≤ B c + kidsB B ks := fun r => ⟨new, rfl, by omega⟩
      rcases r with a | e | _
      · cases a with
        | continue_ => exact goOn
        | skip => cases how <;> first | exact goOn | exact stop _
      · by_cases ho : only = none ∨ only = some e
        · simp only [if_pos ho]; exact stop _
        · simp only [if_neg ho]; exact goOn
      · exact stop _

theorem Rel.visit {B : AnyNode → Nat} (hp : SameHooks E E')
    (h : ∀ n, ∃ c d, Rel c (E.emit .enter n) (E'.emit .enter n) ∧ Rel d (E.emit .exit n) (E'.emit .exit n) ∧
      ((Stops' (E.emit .enter n) ∧ c + (if n.isAddress then d else 0) ≤ B n) ∨
        c + kidsB B (Verif.kids n) + d ≤ B n)) (n : AnyNode) :
    Rel (B n) (Verif.visit E n) (Verif.visit E' n) := by
  induction n using tree_induction with
  | h n ih =>
    rw [visit_eq, visit_eq]
    obtain ⟨c, d, hc, hd, hb⟩ := h n
    refine .of fun s l => ?_
    obtain ⟨new, h1, h2⟩ := hc.run s l
    simp only [walkNode, h1]
    rcases h3 : E.emit .enter n s with ⟨s1, r⟩
    have exit : ∀ s2 (new1 : List τ), new1.length + d ≤ B n → ∃ new', E'.emit .exit n (s2, l ++ new1) =
        (((E.emit .exit n s2).1, l ++ new'), (E.emit .exit n s2).2) ∧ new'.length ≤ B n := by
      intro s2 new1 hl
      obtain ⟨new2, h4, h5⟩ := hd.run s2 (l ++ new1)
      exact ⟨new1 ++ new2, by rw [h4, List.append_assoc], by rw [List.length_append]; omega⟩
    have stop : ∀ s2 (new1 : List τ) (r : Outcome TR), new1.length ≤ B n →
        ∃ new', (((s2, l ++ new1), r) : (σ × List τ) × Outcome TR) =
          ((s2, l ++ new'), r) ∧ new'.length ≤ B n := fun s2 new1 r h => ⟨new1, rfl, h⟩
    have small : new.length ≤ B n := by
      rcases hb with ⟨_, hb⟩ | hb <;> omega
    have addr : n.isAddress = true → new.length + d ≤ B n := by
      intro ha
      rcases hb with ⟨_, hb⟩ | hb
      · rw [if_pos ha] at hb; omega
      · omega
    rcases r with a | e | _
    · cases a with
      | continue_ =>
        have hb : c + kidsB B (Verif.kids n) + d ≤ B n := by
          rcases hb with ⟨hb, _⟩ | hb
          · exact absurd (by rw [h3]) (hb s)
          · exact hb
        obtain ⟨new2, h4, h5⟩ := (Rel.kids hp n.onlyError (Verif.kids n) ih).run s1 (l ++ new)
        simp only [h4]
        rcases h6 : walkKids E n.onlyError (Verif.visit E) (Verif.kids n) s1 with ⟨s2, r⟩
        have e2 : l ++ new ++ new2 = l ++ (new ++ new2) := by simp
        rcases r with a | e | _
        · cases a
          · simp only [e2]; exact exit _ _ (by rw [List.length_append]; omega)
          · simp only [e2]; exact stop _ _ _ (by rw [List.length_append]; omega)
          · simp only [e2]; exact stop _ _ _ (by rw [List.length_append]; omega)
        · simp only [e2]; exact stop _ _ _ (by rw [List.length_append]; omega)
        · simp only [e2]; exact stop _ _ _ (by rw [List.length_append]; omega)
      | skip =>
        by_cases ha : n.isAddress = true
        · simp only [if_pos ha]; exact exit _ _ (addr ha)
        · simp only [if_neg ha]; exact stop _ _ _ small
    · by_cases ha : n.isAddress = true
      · simp only [if_pos ha]; exact exit _ _ (addr ha)
      · simp only [if_neg ha]; exact stop _ _ _ small
    · exact stop _ _ _ small

end rel


/-! ### The emitter -/

section emitter
variable {τ : Type} (dbg : StackObj → Str)

theorem Rel.onSr {α : Type} (m : M SrState α) : Rel 0 m (Verif.onSr m : M (SrState × List τ) α) :=
  fun _ _ => ⟨rfl, rfl, [], by simp [Verif.onSr, Holds.put], by simp⟩

variable {α : Type} {f : α → M SrState TR} {f' : α → M (SrState × List τ) TR} {c : α → Nat}

theorem Rel.collectArgs (h : ∀ x, Rel (c x) (f x) (f' x)) : ∀ (l : List α) (t : SrType),
    Rel (l.map c).sum (Verif.collectArgs dbg f l t) (collectArgsL dbg f' l t)
  | [], _ => Rel.pure _
  | a :: as, t => by
    refine Rel.mono (Rel.andThen (h a) (Rel.bind (Rel.onSr _) fun t => Rel.collectArgs h as _)) ?_
    simp

theorem Rel.genericType {d : Nat} {m : M SrState TR} {m' : M (SrState × List τ) TR} (hm : Rel d m m')
    (h : ∀ x, Rel (c x) (f x) (f' x)) (l : List α) :
    Rel (d + (l.map c).sum) (Verif.genericType dbg m f l) (genericTypeL dbg m' f' l) := by
  cases l with
  | nil => exact Rel.mono (Rel.andThen hm (Rel.andThen (Rel.onSr _) (Rel.pure _))) (by simp)
  | cons a as =>
    exact Rel.mono (Rel.andThen hm (Rel.andThen (Rel.onSr _) (Rel.bind (Rel.onSr _) fun t =>
      Rel.bind (Rel.collectArgs dbg h (a :: as) t) fun _ => Rel.onSr _))) (by omega)

theorem Rel.collectVars (h : ∀ x, Rel (c x) (f x) (f' x)) : ∀ l : List α,
    Rel (l.map c).sum (Verif.collectVars dbg f l) (collectVarsL dbg f' l)
  | [] => Rel.pure _
  | a :: as => by
    refine Rel.mono (Rel.andThen (h a) (Rel.bind (Rel.onSr _) fun t =>
      Rel.bind (Rel.collectVars h as) fun _ => Rel.pure _)) ?_
    simp

theorem Rel.collectInitParams (h : ∀ x, Rel (c x) (f x) (f' x)) : ∀ l : List α,
    Rel (l.map c).sum (Verif.collectInitParams dbg f l) (collectInitParamsL dbg f' l)
  | [] => Rel.pure _
  | a :: as => by
    refine Rel.mono (Rel.andThen (h a) (Rel.bind (Rel.onSr _) fun t =>
      Rel.andThen (Rel.onSr _) (Rel.collectInitParams h as))) ?_
    simp

theorem Rel.visitList (h : ∀ x, Rel (c x) (f x) (f' x)) : ∀ l : List α,
    Rel (l.map c).sum (Verif.visitList f l) (Verif.visitList f' l)
  | [] => Rel.cont
  | a :: as => Rel.mono (Rel.andThen (h a) (Rel.visitList h as)) (by simp)

theorem Rel.visitOpt (h : ∀ x, Rel (c x) (f x) (f' x)) (o : Option α) :
    Rel ((o.map c).getD 0) (Verif.visitOpt f o) (Verif.visitOpt f' o) := by
  cases o with
  | none => exact Rel.cont
  | some x => exact h x

theorem Stops'.bind {β σ : Type} {m : M σ β} {f : β → M σ TR} (h : ∀ a, Stops' (f a)) : Stops' (m.bind f) := by
  intro s
  simp only [M.bind]
  rcases m s with ⟨s1, r⟩
  rcases r with a | e | _
  · exact h a s1
  · simp
  · simp

theorem Stops'.andThen {β σ : Type} {m : M σ β} {f : M σ TR} (h : Stops' f) : Stops' (m.andThen f) :=
  Stops'.bind fun _ => h

theorem Stops'.skip {σ : Type} : Stops' (M.skip : M σ TR) := fun _ => by simp [M.skip, M.pure]
theorem Stops'.panic {σ : Type} : Stops' (M.panic : M σ TR) := fun _ => by simp [M.panic]

/-- calls per node: parameter lists (of contracts) are walked twice -/
def callBound (n : AnyNode) : Nat :=
  match n with
  | .contractDef _ | .program _ => 4 * nodes n
  | .compParams _ => 4 * nodes n - 2
  | _ => 2 * nodes n

theorem Rel.note {β : Type} {c : Nat} {m : M SrState β} {m' : M (SrState × List τ) β} (h : Rel c m m') (x : τ) :
    Rel (c + 1) m (fun s => m' (s.1, s.2 ++ [x])) := by
  refine .of fun s l => ?_
  obtain ⟨new, h1, h2⟩ := h.run s (l ++ [x])
  exact ⟨x :: new, by simp [h1], by simp; omega⟩

theorem Rel.kid {σ : Type} {E : Emitter σ} {E' : Emitter (σ × List τ)} {B : AnyNode → Nat} {β : Type}
    {mk : β → AnyNode} {f : W β → M σ TR} {f' : W β → M (σ × List τ) TR}
    (hp : SameHooks E E') (h : ∀ n, Rel (B n) (Verif.visit E n) (Verif.visit E' n))
    (hf : IsKid E (Verif.visit E) mk f) (hf' : IsKid E' (Verif.visit E') mk f') (w : W β) :
    Rel (B (mk w.node)) (f w) (f' w) := by
  rw [hf, hf']
  exact Rel.child hp (h _) _

theorem sameHooks_recording (k : Nat) : SameHooks (srEmitter dbg k) (recordingEmitter dbg k) := by
  cases k <;> exact ⟨fun _ _ _ _ => rfl, fun _ _ => rfl⟩

theorem kidsB_append (B : AnyNode → Nat) : ∀ a b : List Kid, kidsB B (a ++ b) = kidsB B a + kidsB B b
  | [], b => by simp [kidsB]
  | .child _ _ c :: ks, b => by simp [kidsB, kidsB_append B ks b, Nat.add_assoc]
  | .push _ _ :: ks, b => by simp [kidsB, kidsB_append B ks b]
  | .panic :: ks, b => by simp [kidsB, kidsB_append B ks b]

theorem kidsB_kid {α : Type} (B : AnyNode → Nat) (how : OnSkip) (mk : α → AnyNode) (w : W α) (ks : List Kid) :
    kidsB B (Verif.kid how mk w :: ks) = B (mk w.node) + kidsB B ks := rfl

theorem kidsB_list {α : Type} (B : AnyNode → Nat) (how : OnSkip) (mk : α → AnyNode) : ∀ l : List (W α),
    kidsB B (kidsL how mk l) = (l.map fun w => B (mk w.node)).sum
  | [] => rfl
  | w :: l => by
    have := kidsB_list B how mk l
    simp only [kidsL] at this
    simp only [kidsL, List.map_cons, List.sum_cons, kidsB_kid, this]

theorem kidsB_opt {α : Type} (B : AnyNode → Nat) (how : OnSkip) (mk : α → AnyNode) (o : Option (W α)) :
    kidsB B (kidsO how mk o) = (o.map fun w => B (mk w.node)).getD 0 := by
  cases o <;> rfl

theorem kidsB_map {α : Type} (B : AnyNode → Nat) (how : OnSkip) (mk : α → AnyNode) : ∀ l : List α,
    kidsB B (l.map fun x => Kid.child how none (mk x)) = (l.map fun x => B (mk x)).sum
  | [] => rfl
  | x :: l => by simp only [List.map_cons, List.sum_cons, kidsB, kidsB_map B how mk l]

theorem sum_two {α : Type} (g : α → Nat) (l : List α) : (l.map fun x => 2 * g x).sum = 2 * (l.map g).sum := by
  induction l with
  | nil => rfl
  | cons a l ih => simp only [List.map_cons, List.sum_cons, ih]; omega

theorem opt_two {α : Type} (g : α → Nat) (o : Option α) :
    (o.map fun x => 2 * g x).getD 0 = 2 * (o.map g).getD 0 := by cases o <;> simp

theorem nodes_typeName (n : NodeTypeNameIdentifier) : nodes (.typeNameId n) ≤ 2 := by
  rw [nodes_eq]
  cases n <;> simp only [kids, kidsN] <;> try omega
  rw [nodes_eq]
  simp [kids, kidsN]

macro "stopstep" : tactic => `(tactic| repeat' (first
  | exact Stops'.skip | exact Stops'.panic | refine Stops'.andThen ?_ | refine Stops'.bind (fun _ => ?_)))

end emitter

section recording
variable (dbg : StackObj → Str)

macro "relstep" : tactic => `(tactic| repeat' (first
  | with_reducible exact Rel.cont | with_reducible exact Rel.skip | with_reducible exact Rel.panic | with_reducible exact Rel.onSr _ | with_reducible exact Rel.pure _
  | with_reducible exact Rel.kid ‹SameHooks _ _› ‹∀ n, Rel _ (visit _ n) (visit _ n)› (isKid_typeNameId _) (isKid_typeNameId _) _
  | with_reducible exact Rel.kid ‹SameHooks _ _› ‹∀ n, Rel _ (visit _ n) (visit _ n)› (isKid_metaId _) (isKid_metaId _) _
  | with_reducible exact Rel.kid ‹SameHooks _ _› ‹∀ n, Rel _ (visit _ n) (visit _ n)› (isKid_mapKey _) (isKid_mapKey _) _
  | with_reducible exact Rel.kid ‹SameHooks _ _› ‹∀ n, Rel _ (visit _ n) (visit _ n)› (isKid_mapValue _) (isKid_mapValue _) _
  | with_reducible exact Rel.kid ‹SameHooks _ _› ‹∀ n, Rel _ (visit _ n) (visit _ n)› (isKid_typeArg _) (isKid_typeArg _) _
  | with_reducible exact Rel.kid ‹SameHooks _ _› ‹∀ n, Rel _ (visit _ n) (visit _ n)› (isKid_scillaType _) (isKid_scillaType _) _
  | with_reducible exact Rel.kid ‹SameHooks _ _› ‹∀ n, Rel _ (visit _ n) (visit _ n)› (isKid_mapEntry _) (isKid_mapEntry _) _
  | with_reducible exact Rel.kid ‹SameHooks _ _› ‹∀ n, Rel _ (visit _ n) (visit _ n)› (isKid_addrField _) (isKid_addrField _) _
  | with_reducible exact Rel.kid ‹SameHooks _ _› ‹∀ n, Rel _ (visit _ n) (visit _ n)› (isKid_addrType _) (isKid_addrType _) _
  | with_reducible exact Rel.kid ‹SameHooks _ _› ‹∀ n, Rel _ (visit _ n) (visit _ n)› (isKid_mapValueArgs _) (isKid_mapValueArgs _) _
  | with_reducible exact Rel.kid ‹SameHooks _ _› ‹∀ n, Rel _ (visit _ n) (visit _ n)› (isKid_mapValueAllowing _) (isKid_mapValueAllowing _) _
  | with_reducible exact Rel.kid ‹SameHooks _ _› ‹∀ n, Rel _ (visit _ n) (visit _ n)› (isKid_fullExpr _) (isKid_fullExpr _) _
  | with_reducible exact Rel.kid ‹SameHooks _ _› ‹∀ n, Rel _ (visit _ n) (visit _ n)› (isKid_componentId _) (isKid_componentId _) _
  | with_reducible exact Rel.kid ‹SameHooks _ _› ‹∀ n, Rel _ (visit _ n) (visit _ n)› (isKid_typeAnn _) (isKid_typeAnn _) _
  | with_reducible exact Rel.kid ‹SameHooks _ _› ‹∀ n, Rel _ (visit _ n) (visit _ n)› (isKid_typedId _) (isKid_typedId _) _
  | with_reducible exact Rel.kid ‹SameHooks _ _› ‹∀ n, Rel _ (visit _ n) (visit _ n)› (isKid_paramPair _) (isKid_paramPair _) _
  | with_reducible exact Rel.kid ‹SameHooks _ _› ‹∀ n, Rel _ (visit _ n) (visit _ n)› (isKid_compParams _) (isKid_compParams _) _
  | with_reducible exact Rel.kid ‹SameHooks _ _› ‹∀ n, Rel _ (visit _ n) (visit _ n)› (isKid_contractField _) (isKid_contractField _) _
  | with_reducible exact Rel.kid ‹SameHooks _ _› ‹∀ n, Rel _ (visit _ n) (visit _ n)› (isKid_withConstraint _) (isKid_withConstraint _) _
  | with_reducible exact Rel.kid ‹SameHooks _ _› ‹∀ n, Rel _ (visit _ n) (visit _ n)› (isKid_compDef _) (isKid_compDef _) _
  | with_reducible apply Rel.andThen | (with_reducible apply Rel.bind)
  | with_reducible apply Rel.collectVars | with_reducible apply Rel.collectInitParams
  | with_reducible apply Rel.genericType | with_reducible apply Rel.visitList
  | with_reducible apply Rel.visitOpt | with_reducible intro _))

/-- what is to be shown for a node -/
def StepOk (E : Emitter SrState) (E' : Emitter (SrState × List (Mode × AnyNode))) (n : AnyNode) : Prop :=
  ∃ c d, Rel c (emitSr dbg E .enter n) (emitSrL dbg E' .enter n) ∧
    Rel d (emitSr dbg E .exit n) (emitSrL dbg E' .exit n) ∧
    ((Stops' (emitSr dbg E .enter n) ∧ c + 1 + (if n.isAddress then d + 1 else 0) ≤ callBound n) ∨
      c + 1 + kidsB callBound (kids n) + (d + 1) ≤ callBound n)

section
variable {dbg} {E : Emitter SrState} {E' : Emitter (SrState × List (Mode × AnyNode))} {n : AnyNode}

theorem StepOk.addr {c d : Nat} (h1 : Rel c (emitSr dbg E .enter n) (emitSrL dbg E' .enter n))
    (h2 : Rel d (emitSr dbg E .exit n) (emitSrL dbg E' .exit n)) (h3 : Stops' (emitSr dbg E .enter n))
    (h4 : nodes n = 1 + kidsN (kids n) → c + 1 + (d + 1) ≤ callBound n) : StepOk dbg E E' n :=
  ⟨c, d, h1, h2, .inl ⟨h3, by have h4 := h4 (nodes_eq n); split <;> omega⟩⟩

theorem StepOk.stop {c d : Nat} (h1 : Rel c (emitSr dbg E .enter n) (emitSrL dbg E' .enter n))
    (h2 : Rel d (emitSr dbg E .exit n) (emitSrL dbg E' .exit n)) (h3 : Stops' (emitSr dbg E .enter n))
    (ha : n.isAddress = false) (h4 : nodes n = 1 + kidsN (kids n) → c + 1 ≤ callBound n) : StepOk dbg E E' n :=
  ⟨c, d, h1, h2, .inl ⟨h3, by rw [ha]; simpa using h4 (nodes_eq n)⟩⟩

theorem StepOk.easy (h1 : Rel 0 (emitSr dbg E .enter n) (emitSrL dbg E' .enter n))
    (h2 : Rel 0 (emitSr dbg E .exit n) (emitSrL dbg E' .exit n)) (h3 : Stops' (emitSr dbg E .enter n))
    (ha : n.isAddress = false) : StepOk dbg E E' n := by
  refine .stop h1 h2 h3 ha fun _ => ?_
  have := nodes_pos n
  unfold callBound
  split <;> omega

theorem StepOk.go {c d : Nat} (h1 : Rel c (emitSr dbg E .enter n) (emitSrL dbg E' .enter n))
    (h2 : Rel d (emitSr dbg E .exit n) (emitSrL dbg E' .exit n))
    (h4 : nodes n = 1 + kidsN (kids n) → c + 1 + kidsB callBound (kids n) + (d + 1) ≤ callBound n) : StepOk dbg E E' n :=
  ⟨c, d, h1, h2, .inr (h4 (nodes_eq n))⟩
end

macro "boundstep" : tactic => `(tactic| (
  intro hn
  simp only [kids, kidsN_kid, kidsN_list, kidsN_opt, kidsN_map, kidsN_append, kidsN] at hn
  simp only [kids, kidsB_kid, kidsB_list, kidsB_opt, kidsB_map, kidsB_append, kidsB, callBound, sum_two, opt_two]))

macro "stopcase" : tactic => `(tactic| (apply StepOk.stop; (try dsimp only [emitSr, emitSrL]; focus relstep); (try dsimp only [emitSr, emitSrL]; focus relstep); (try dsimp only [emitSr]; focus stopstep); rfl; (boundstep ; omega)))
macro "gocase" : tactic => `(tactic| (apply StepOk.go; (try dsimp only [emitSr, emitSrL]; focus relstep); (try dsimp only [emitSr, emitSrL]; focus relstep); (boundstep ; omega)))

theorem rel_recording : ∀ (k : Nat) (n : AnyNode),
    Rel (callBound n) (visit (srEmitter dbg k) n) (visit (recordingEmitter dbg k) n)
  | 0 => by
    refine Rel.visit (sameHooks_recording dbg 0) fun n => ?_
    exact ⟨0, 0, Rel.panic, Rel.panic, Or.inl ⟨Stops'.panic, by simp⟩⟩
  | k + 1 => by
    have hp := sameHooks_recording dbg k
    have ih := rel_recording k
    refine Rel.visit (sameHooks_recording dbg (k + 1)) fun n => ?_
    suffices h : StepOk dbg (srEmitter dbg k) (recordingEmitter dbg k) n by
      obtain ⟨c, d, hc, hd, hb⟩ := h
      exact ⟨c + 1, d + 1, Rel.note hc _, Rel.note hd _, hb⟩
    cases n
    case contractDef n =>
      apply StepOk.stop
      · try dsimp only [emitSr, emitSrL]; relstep
      · try dsimp only [emitSr, emitSrL]; relstep
      · try dsimp only [emitSr]; stopstep
      · rfl
      · have := nodes_typeName n.contractName.node
        have := nodes_pos (.compParams n.parameters.node)
        boundstep ; omega
    case addrType n =>
      obtain ⟨i, tn, fs⟩ := n
      apply StepOk.addr
      · try dsimp only [emitSr, emitSrL]; relstep
      · try dsimp only [emitSr, emitSrL]; relstep
      · try dsimp only [emitSr]; stopstep
      · boundstep ; omega
    case addrField n =>
      obtain ⟨⟨i, a, b⟩, t⟩ := n
      cases i <;> stopcase
    case transDef n =>
      have hd : ∀ mode, Rel (callBound (.componentId n.name.node) +
          (n.parameters.node.parameters.map fun w => callBound (.paramPair w.node)).sum)
          (emitSr dbg (srEmitter dbg k) mode (.transDef n))
          (emitSrL dbg (recordingEmitter dbg k) mode (.transDef n)) := by
        intro mode
        dsimp only [emitSr, emitSrL]
        apply Rel.mono
        · apply Rel.andThen
          · exact Rel.kid hp ih (isKid_componentId _) (isKid_componentId _) _
          · apply Rel.bind
            · exact Rel.collectVars _ (fun _ => Rel.kid hp ih (isKid_paramPair _) (isKid_paramPair _) _) _
            · intro params
              apply Rel.bind
              · exact Rel.onSr _
              · rintro ⟨name, kind⟩
                by_cases hk : kind = .componentName
                · simp only [hk, if_true]; exact (Rel.andThen (Rel.onSr _) Rel.skip : Rel 0 _ _)
                · simp only [hk, if_false]; exact Rel.panic
        · omega
      refine .stop (hd _) (hd _) ?_ rfl ?_
      · dsimp only [emitSr]
        refine Stops'.andThen (Stops'.bind fun _ => Stops'.bind ?_)
        rintro ⟨name, kind⟩
        by_cases hk : kind = .componentName
        · simp only [hk, if_true]; exact Stops'.andThen Stops'.skip
        · simp only [hk, if_false]; exact Stops'.panic
      · have := nodes_eq (.compParams n.parameters.node)
        simp only [kids, kidsN_list] at this
        boundstep; omega
    case metaId n => 
      cases n <;> first | gocase | stopcase
    case typeNameId n => 
      cases n <;> gocase
    all_goals first
      | exact .easy Rel.panic Rel.panic Stops'.panic rfl
      | exact .easy Rel.skip Rel.skip Stops'.skip rfl
      | gocase
      | stopcase
      | (rename_i n; cases n <;> first | exact .easy Rel.panic Rel.panic Stops'.panic rfl | gocase | stopcase)
      | skip

end recording

end Verif
