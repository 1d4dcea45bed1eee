import Verif.Proofs.EmitContract
import Verif.Props.Types
import Verif.Proofs.PrintDerives
/-
The contracts the emitter builds contain only names that can be written and types that can be
written (whatever the types of the interface are).
-/
namespace Verif

set_option linter.unusedSimpArgs false
set_option linter.unusedVariables false

variable (dbg : StackObj → Str)

/-! ### Types with writable names -/

/-- the text of an identifier that is the name of a type -/
def TypeText (n : Str) : Prop :=
  Printable (.customIdentifier n) ∨ Printable (.byStrWithSize n) ∨ n = str! "ByStr"

/-- a type that is just a name -/
def NameSr (t : SrType) : Prop := ∃ n, TypeText n ∧ t = .mk n [] none

/-- if the type can be converted, the result can be written -/
def SrOk (t : SrType) : Prop := ∀ ty, t.toTy = some ty → ty.Writable

/-- the address part of a type can be written -/
def AddrOk (a : Option (Str × List Field)) : Prop :=
  ∀ p, a = some p → Ty.Writable (.byStr20With p.1 p.2)

theorem AddrOk.none : AddrOk none := fun _ h => by simp at h

theorem ite_split {α : Type} {c : Prop} [Decidable c] {x y o : α} (h : (if c then x else y) = o) :
    (c ∧ x = o) ∨ (¬ c ∧ y = o) := by
  by_cases hc : c
  · rw [if_pos hc] at h; exact .inl ⟨hc, h⟩
  · rw [if_neg hc] at h; exact .inr ⟨hc, h⟩

theorem baseType_writable {m : Str} {t : Ty} (h : baseType m = some t) :
    t.Writable ∧ t.nameTok.isSome = true := by
  rw [baseType_eq] at h
  rcases ite_split h with ⟨_, h⟩ | ⟨_, h⟩
  · simp at h
  · obtain ⟨l1, l2, hl, _⟩ := List.lookup_eq_some_iff.mp h
    have : t ∈ builtinTypes.map (·.2) := by rw [hl]; simp
    simp only [builtinTypes, List.map_cons, List.map_nil, List.mem_cons, List.not_mem_nil, or_false] at this
    rcases this with rfl | rfl | rfl | rfl | rfl | rfl | rfl | rfl | rfl | rfl | rfl | rfl | rfl <;>
      simp [Ty.Writable, Ty.nameTok]

theorem not_plus_of_name {w : Str} (h : ∀ d ∈ w, NameChar d) : '+' ∉ w := by
  intro hp
  exact absurd (h _ hp) (by unfold NameChar; decide)

theorem typeText_noPlus {n : Str} (h : TypeText n) : '+' ∉ n := by
  rcases h with h | h | rfl
  · obtain ⟨⟨c, w, rfl, h1, h2, h3⟩, _⟩ := h
    intro hp
    rcases List.mem_cons.1 hp with rfl | hp
    · exact absurd h1 (by decide)
    · exact not_plus_of_name h3 hp
  · obtain ⟨ds, rfl, _, hd⟩ := h
    intro hp
    rcases List.mem_append.1 hp with hp | hp
    · simp at hp
    · exact absurd (digit_isDec (hd _ hp)) (by decide)
  · decide

theorem typeText_ne_map {n : Str} (h : TypeText n) : n ≠ str! "Map" := by
  rintro rfl
  rcases h with h | h | h
  · exact h.2.1 (by decide)
  · obtain ⟨ds, h, _⟩ := h
    simp at h
  · simp at h

/-- a name that is not built in and no type constructor -/
theorem otherType_writable {n : Str} {a : Option (Str × List Field)} (h : TypeText n) (hb : baseType n = none)
    (ho : n ≠ str! "Option") (hl : n ≠ str! "List") (hp : n ≠ str! "Pair") (ha : AddrOk a) :
    (otherType n a).Writable ∧ (a = none → (otherType n a).nameTok.isSome = true) := by
  by_cases h20 : n = str! "ByStr20"
  · subst h20
    cases a with
    | none => exact ⟨trivial, fun _ => rfl⟩
    | some p =>
      refine ⟨?_, fun h => by simp at h⟩
      have := ha p rfl
      simpa [otherType] using this
  rw [otherType_eq n (typeText_noPlus h) h20]
  rw [baseType_eq, if_neg h20, List.lookup_eq_none_iff] at hb
  have htaken : n ∉ takenNames := by
    intro hm
    rcases List.mem_append.1 hm with hm | hm
    · obtain ⟨p, hmem, rfl⟩ := List.mem_map.mp hm
      have := hb p hmem
      simp at this
    · have := typeText_ne_map h
      simp only [List.mem_cons, List.not_mem_nil, or_false] at hm
      rcases hm with rfl | rfl | rfl | rfl <;> contradiction
  rcases h with h | h | rfl
  · have : userType n = .other n := by
      unfold userType
      split
      · rename_i ds
        exact absurd ⟨ds, rfl⟩ h.2.2
      · rfl
    rw [this]
    exact ⟨.inl ⟨h, htaken⟩, fun _ => rfl⟩
  · have h0 := h
    obtain ⟨ds, rfl, hne, hd⟩ := h
    have hall : ds.all isDec = true := List.all_eq_true.2 fun c hc => digit_isDec (hd c hc)
    show (if ds ≠ [] ∧ ds.all isDec ∧ digitsValue ds < 2 ^ 64 then Ty.byStrX (digitsValue ds)
      else .other _ : Ty).Writable ∧ (_ → (if ds ≠ [] ∧ ds.all isDec ∧ digitsValue ds < 2 ^ 64 then
        Ty.byStrX (digitsValue ds) else .other _ : Ty).nameTok.isSome = true)
    by_cases hv : digitsValue ds < 2 ^ 64
    · rw [if_pos ⟨hne, hall, hv⟩]
      exact ⟨hv, fun _ => rfl⟩
    · rw [if_neg fun h => hv h.2.2]
      exact ⟨.inr ⟨h0, Nat.le_of_not_lt hv⟩, fun _ => rfl⟩
  · exact absurd (by decide : str! "ByStr" ∈ takenNames) htaken

theorem srOk_mk {n : Str} {ts : List SrType} {a : Option (Str × List Field)} (h : TypeText n)
    (hs : ∀ t ∈ ts, SrOk t) (ha : AddrOk a) : SrOk (.mk n ts a) := by
  intro ty hty
  rw [toTy_eq] at hty
  have hs' : ∀ t ∈ ts.reverse, SrOk t := fun t ht => hs t (by simpa using ht)
  generalize ts.reverse = l at hty hs'
  cases hb : baseType n with
  | some t =>
    rw [hb] at hty
    simp only [Option.some.injEq] at hty
    subst hty
    exact (baseType_writable hb).1
  | none =>
    rw [hb] at hty
    simp only at hty
    rcases ite_split hty with ⟨_, hty⟩ | ⟨h1, hty⟩
    · cases l with
      | nil => simp at hty
      | cons x l =>
        simp only [Option.map_eq_some_iff] at hty
        obtain ⟨t, ht, rfl⟩ := hty
        exact hs' x (by simp) t ht
    rcases ite_split hty with ⟨_, hty⟩ | ⟨h2, hty⟩
    · cases l with
      | nil => simp at hty
      | cons x l =>
        simp only [Option.map_eq_some_iff] at hty
        obtain ⟨t, ht, rfl⟩ := hty
        exact hs' x (by simp) t ht
    rcases ite_split hty with ⟨_, hty⟩ | ⟨h3, hty⟩
    · cases l with
      | nil => simp at hty
      | cons y l =>
        cases l with
        | nil => simp at hty
        | cons x l =>
          simp only [Option.bind_eq_some_iff, Option.map_eq_some_iff] at hty
          obtain ⟨t, ht, u, hu, rfl⟩ := hty
          exact ⟨hs' x (by simp) t ht, hs' y (by simp) u hu⟩
    rcases ite_split hty with ⟨e, hty⟩ | ⟨h4, hty⟩
    · exact absurd e (typeText_ne_map h)
    simp only [Option.some.injEq] at hty
    subst hty
    exact (otherType_writable h hb h1 h2 h3 ha).1

theorem NameSr.ok {t : SrType} (h : NameSr t) : SrOk t := by
  obtain ⟨n, hn, rfl⟩ := h
  exact srOk_mk hn (by simp) .none

/-- a name converts to a type that is a single name -/
theorem NameSr.name {t : SrType} (h : NameSr t) {ty : Ty} (hty : t.toTy = some ty) :
    ty.nameTok.isSome = true := by
  obtain ⟨n, hn, rfl⟩ := h
  rw [toTy_eq] at hty
  cases hb : baseType n with
  | some t =>
    rw [hb] at hty
    simp only [Option.some.injEq] at hty
    subst hty
    exact (baseType_writable hb).2
  | none =>
    rw [hb] at hty
    simp only [List.reverse_nil] at hty
    rcases ite_split hty with ⟨_, hty⟩ | ⟨h1, hty⟩
    · simp at hty
    rcases ite_split hty with ⟨_, hty⟩ | ⟨h2, hty⟩
    · simp at hty
    rcases ite_split hty with ⟨_, hty⟩ | ⟨h3, hty⟩
    · simp at hty
    rcases ite_split hty with ⟨_, hty⟩ | ⟨h4, hty⟩
    · simp at hty
    simp only [Option.some.injEq] at hty
    subst hty
    exact (otherType_writable hn hb h1 h2 h3 .none).2 rfl

theorem srOk_map {k v : SrType} (hk : NameSr k) (hv : SrOk v) : SrOk (.mk (str! "Map") [k, v] none) := by
  intro ty hty
  rw [toTy_eq] at hty
  have hb : baseType (str! "Map") = none := rfl
  rw [hb] at hty
  simp only [List.reverse_cons, List.reverse_nil, List.nil_append, List.cons_append] at hty
  rw [if_neg (by decide), if_neg (by decide), if_neg (by decide), if_pos trivial] at hty
  simp only [Option.bind_eq_some_iff, Option.map_eq_some_iff] at hty
  obtain ⟨t, ht, u, hu, rfl⟩ := hty
  exact ⟨hk.name ht, hk.ok t ht, hv u hu⟩

/-! ### The stack -/

/-- what may lie on the stack -/
def GoodObj : StackObj → Prop
  | .ident n .unknown => TypeText n
  | .ident _ .componentName => True
  | .varDecl f => fieldsWritable [f]
  | .typeDef t => NameSr t

/-- a stack with `b` component names -/
def Good (b : Nat) (st : List StackObj) : Prop := (∀ x ∈ st, GoodObj x) ∧ (comps st).length = b

/-- a component name has been lost -/
def Lost (b : Nat) (st : List StackObj) : Prop := (comps st).length < b

/-- possibly with a composite type on top -/
def Top (b : Nat) (st : List StackObj) : Prop :=
  Good b st ∨ ∃ t st', st = .typeDef t :: st' ∧ SrOk t ∧ Good b st'

/-- From stacks in `P`, a success gives a stack in `Q` and an error a good stack, unless a component name has been lost. -/
structure Ht {α : Type} (b : Nat) (P : List StackObj → Prop) (m : M SrState α) (Q : α → List StackObj → Prop) :
    Prop where
  tame : Tame m
  run : ∀ s, P s.stack →
    (∀ s' a, m s = (s', .ok a) → Q a s'.stack ∨ Lost b s'.stack) ∧
    (∀ s' e, m s = (s', .err e) → Good b s'.stack ∨ Lost b s'.stack)

theorem Lost.tame {α : Type} {b : Nat} {m : M SrState α} (h : Tame m) {s : SrState} (hl : Lost b s.stack) :
    Lost b (m s).1.stack := Nat.lt_of_le_of_lt (h s).2.length_le hl

theorem Ht.bind {α β : Type} {b : Nat} {P : List StackObj → Prop} {m : M SrState α}
    {Q : α → List StackObj → Prop} {f : α → M SrState β} {R : β → List StackObj → Prop}
    (hm : Ht b P m Q) (hf : ∀ a, Ht b (Q a) (f a) R) : Ht b P (m.bind f) R := by
  refine ⟨hm.tame.bind fun a => (hf a).tame, fun s hs => ?_⟩
  obtain ⟨h1, h2⟩ := hm.run s hs
  simp only [M.bind]
  cases h : m s with
  | mk s1 r =>
    cases r with
    | ok a =>
      simp only
      rcases h1 s1 a h with hq | hl
      · exact (hf a).run s1 hq
      · have := hl.tame (hf a).tame
        constructor
        · intro s' a' e; rw [e] at this; exact .inr this
        · intro s' a' e; rw [e] at this; exact .inr this
    | err e =>
      simp only
      refine ⟨fun s' a' e => by simp at e, fun s' a' e' => ?_⟩
      simp only [Prod.mk.injEq, Outcome.err.injEq] at e'
      obtain ⟨rfl, rfl⟩ := e'
      exact h2 _ _ h
    | panic =>
      simp only
      exact ⟨fun s' a' e => by simp at e, fun s' a' e => by simp at e⟩

theorem Ht.weaken {α : Type} {b : Nat} {P P' : List StackObj → Prop} {m : M SrState α}
    {Q Q' : α → List StackObj → Prop} (h : Ht b P m Q) (hp : ∀ st, P' st → P st)
    (hq : ∀ a st, Q a st → Q' a st) : Ht b P' m Q' :=
  ⟨h.tame, fun s hs => ⟨fun s' a e => ((h.run s (hp _ hs)).1 s' a e).imp (hq _ _) id,
    (h.run s (hp _ hs)).2⟩⟩

theorem Ht.pure {α : Type} {b : Nat} {Q : α → List StackObj → Prop} (a : α) :
    Ht b (Q a) (M.pure a : M SrState α) Q := by
  refine ⟨Tame.pure a, fun s hs => ⟨fun s' a' e => ?_, fun s' a' e => by simp [M.pure] at e⟩⟩
  simp only [M.pure, Prod.mk.injEq, Outcome.ok.injEq] at e
  obtain ⟨rfl, rfl⟩ := e
  exact .inl hs

theorem Ht.panic {α : Type} {b : Nat} {P : List StackObj → Prop} {Q : α → List StackObj → Prop} :
    Ht b P (M.panic : M SrState α) Q :=
  ⟨Tame.panic, fun s hs => ⟨fun s' a' e => by simp [M.panic] at e, fun s' a' e => by simp [M.panic] at e⟩⟩

theorem Ht.swallow {b : Nat} {P : List StackObj → Prop} {m : M SrState Unit} {Q : Unit → List StackObj → Prop}
    (h : Ht b P m Q) (hq : ∀ st, Good b st → Q () st) : Ht b P (swallow m) Q := by
  refine ⟨h.tame.swallow, fun s hs => ?_⟩
  obtain ⟨h1, h2⟩ := h.run s hs
  simp only [Verif.swallow]
  cases hm : m s with
  | mk s1 r =>
    cases r with
    | ok a =>
      refine ⟨fun s' a' e => ?_, fun s' a' e => by simp at e⟩
      simp only [Prod.mk.injEq] at e
      obtain ⟨rfl, _⟩ := e
      exact h1 _ _ hm
    | err e =>
      refine ⟨fun s' a' e => ?_, fun s' a' e => by simp at e⟩
      simp only [Prod.mk.injEq] at e
      obtain ⟨rfl, _⟩ := e
      exact (h2 _ _ hm).imp (hq _) id
    | panic => exact ⟨fun s' a' e => by simp at e, fun s' a' e => by simp at e⟩

theorem comps_quiet {x : StackObj} {st : List StackObj} (h : ∀ n, x ≠ .ident n .componentName) :
    comps (x :: st) = comps st := by
  cases x with
  | ident n k =>
    cases k with
    | unknown => rfl
    | componentName => exact absurd rfl (h n)
  | varDecl f => rfl
  | typeDef t => rfl

theorem Good.push {b : Nat} {x : StackObj} {st : List StackObj} (h : Good b st) (hx : GoodObj x)
    (hn : ∀ n, x ≠ .ident n .componentName) : Good b (x :: st) := by
  refine ⟨?_, by rw [comps_quiet hn]; exact h.2⟩
  intro y hy
  rcases List.mem_cons.1 hy with rfl | hy
  · exact hx
  · exact h.1 y hy

/-- what is below the top of a good stack -/
theorem Good.pop {b : Nat} {x : StackObj} {st : List StackObj} (h : Good b (x :: st)) :
    GoodObj x ∧ (Good b st ∨ Lost b st) := by
  refine ⟨h.1 x (by simp), ?_⟩
  by_cases hx : ∃ n, x = .ident n .componentName
  · obtain ⟨n, rfl⟩ := hx
    right
    have := h.2
    simp only [comps, List.length_cons] at this
    unfold Lost; omega
  · left
    refine ⟨fun y hy => h.1 y (by simp [hy]), ?_⟩
    have := h.2
    rwa [comps_quiet fun n e => hx ⟨n, e⟩] at this

theorem Top.pop {b : Nat} {x : StackObj} {st : List StackObj} (h : Top b (x :: st)) :
    Good b st ∨ Lost b st := by
  rcases h with h | ⟨t, st', e, _, h⟩
  · exact h.pop.2
  · simp only [List.cons.injEq] at e
    rw [e.2]; exact .inl h

theorem Top.nil {b : Nat} (h : Top b []) : Good b [] := by
  rcases h with h | ⟨t, st', e, _, h⟩
  · exact h
  · simp at e

theorem Ht.pushId {b : Nat} {n : Str} (h : TypeText n) :
    Ht b (Good b) (SrState.pushObj (.ident n .unknown)) fun _ => Good b := by
  refine ⟨Tame.pushId n, fun s hs => ⟨fun s' a e => ?_, fun s' a e => by simp [SrState.pushObj] at e⟩⟩
  simp only [SrState.pushObj, Prod.mk.injEq] at e
  obtain ⟨rfl, _⟩ := e
  exact .inl (hs.push h (by simp))

theorem Ht.pushVar {b : Nat} {P : Prop} {f : Field} (h : P → fieldsWritable [f]) :
    Ht b (fun st => P ∧ Good b st) (SrState.pushObj (.varDecl f)) fun _ => Good b := by
  refine ⟨Tame.pushVar f, fun s hs => ⟨fun s' a e => ?_, fun s' a e => by simp [SrState.pushObj] at e⟩⟩
  simp only [SrState.pushObj, Prod.mk.injEq] at e
  obtain ⟨rfl, _⟩ := e
  exact .inl (hs.2.push (h hs.1) (by simp))

theorem Ht.pushType {b : Nat} {P : Prop} {t : SrType} (h : P → SrOk t) :
    Ht b (fun st => P ∧ Good b st) (SrState.pushObj (.typeDef t)) fun _ => Top b := by
  refine ⟨Tame.pushType t, fun s hs => ⟨fun s' a e => ?_, fun s' a e => by simp [SrState.pushObj] at e⟩⟩
  simp only [SrState.pushObj, Prod.mk.injEq] at e
  obtain ⟨rfl, _⟩ := e
  exact .inl (.inr ⟨t, _, rfl, h hs.1, hs.2⟩)

theorem Ht.popType {b : Nat} : Ht b (Top b) (popType dbg) fun t st => SrOk t ∧ Good b st := by
  refine ⟨Tame.popType dbg, fun s hs => ?_⟩
  obtain ⟨st, c⟩ := s
  cases st with
  | nil =>
    refine ⟨fun s' a e => by simp [Verif.popType] at e, fun s' a e => ?_⟩
    simp only [Verif.popType, Prod.mk.injEq] at e
    obtain ⟨rfl, _⟩ := e
    exact .inl hs.nil
  | cons x st =>
    have hp := hs.pop
    cases x with
    | typeDef t =>
      refine ⟨fun s' a e => ?_, fun s' a e => by simp [Verif.popType] at e⟩
      simp only [Verif.popType, Prod.mk.injEq, Outcome.ok.injEq] at e
      obtain ⟨rfl, rfl⟩ := e
      refine hp.imp (fun hg => ⟨?_, hg⟩) id
      rcases hs with hs | ⟨t', st', e, ht, _⟩
      · exact hs.pop.1.ok
      · simp only [List.cons.injEq, StackObj.typeDef.injEq] at e
        rw [e.1]; exact ht
    | ident n k =>
      refine ⟨fun s' a e => by simp [Verif.popType] at e, fun s' a e => ?_⟩
      simp only [Verif.popType, Prod.mk.injEq] at e
      obtain ⟨rfl, _⟩ := e
      exact hp
    | varDecl f =>
      refine ⟨fun s' a e => by simp [Verif.popType] at e, fun s' a e => ?_⟩
      simp only [Verif.popType, Prod.mk.injEq] at e
      obtain ⟨rfl, _⟩ := e
      exact hp

theorem Ht.popName {b : Nat} : Ht b (Good b) (Verif.popType dbg) fun t st => NameSr t ∧ Good b st := by
  refine ⟨Tame.popType dbg, fun s hs => ?_⟩
  have h0 := (Ht.popType dbg (b := b)).run s (.inl hs)
  refine ⟨fun s' a e => ?_, h0.2⟩
  obtain ⟨st, c⟩ := s
  cases st with
  | nil => simp [Verif.popType] at e
  | cons x st =>
    cases x with
    | typeDef t =>
      simp only [Verif.popType, Prod.mk.injEq, Outcome.ok.injEq] at e
      obtain ⟨rfl, rfl⟩ := e
      exact hs.pop.2.imp (fun hg => ⟨hs.pop.1, hg⟩) id
    | ident n k => simp [Verif.popType] at e
    | varDecl f => simp [Verif.popType] at e

theorem Ht.popVar {b : Nat} : Ht b (Top b) (popVar dbg) fun f st => fieldsWritable [f] ∧ Good b st := by
  refine ⟨Tame.popVar dbg, fun s hs => ?_⟩
  obtain ⟨st, c⟩ := s
  cases st with
  | nil =>
    refine ⟨fun s' a e => by simp [Verif.popVar] at e, fun s' a e => ?_⟩
    simp only [Verif.popVar, Prod.mk.injEq] at e
    obtain ⟨rfl, _⟩ := e
    exact .inl hs.nil
  | cons x st =>
    have hp := hs.pop
    cases x with
    | varDecl f =>
      refine ⟨fun s' a e => ?_, fun s' a e => by simp [Verif.popVar] at e⟩
      simp only [Verif.popVar, Prod.mk.injEq, Outcome.ok.injEq] at e
      obtain ⟨rfl, rfl⟩ := e
      refine hp.imp (fun hg => ⟨?_, hg⟩) id
      rcases hs with hs | ⟨t', st', e, ht, _⟩
      · exact hs.pop.1
      · simp at e
    | ident n k =>
      refine ⟨fun s' a e => by simp [Verif.popVar] at e, fun s' a e => ?_⟩
      simp only [Verif.popVar, Prod.mk.injEq] at e
      obtain ⟨rfl, _⟩ := e
      exact hp
    | typeDef f =>
      refine ⟨fun s' a e => by simp [Verif.popVar] at e, fun s' a e => ?_⟩
      simp only [Verif.popVar, Prod.mk.injEq] at e
      obtain ⟨rfl, _⟩ := e
      exact hp

/-- an identifier becomes a type; if it is a component name, that name is lost -/
theorem Ht.identToType {b : Nat} : Ht b (Top b) (identToType dbg) fun _ => Good b := by
  refine ⟨Tame.identToType dbg, fun s hs => ?_⟩
  obtain ⟨st, c⟩ := s
  simp only [Verif.identToType, M.bind]
  cases st with
  | nil =>
    refine ⟨fun s' a e => by simp [popIdent] at e, fun s' a e => ?_⟩
    simp only [popIdent, Prod.mk.injEq] at e
    obtain ⟨rfl, _⟩ := e
    exact .inl hs.nil
  | cons x st =>
    have hp := hs.pop
    cases x with
    | ident n k =>
      refine ⟨fun s' a e => ?_, fun s' a e => by simp [popIdent, SrState.pushObj] at e⟩
      simp only [popIdent, SrState.pushObj, Prod.mk.injEq] at e
      obtain ⟨rfl, _⟩ := e
      rcases hs with hs | ⟨t', st', e, ht, _⟩
      · cases k with
        | unknown =>
          refine hp.imp (fun hg => hg.push ⟨n, hs.pop.1, rfl⟩ (by simp)) ?_
          intro hl
          show (comps (.typeDef _ :: st)).length < b
          rw [comps_quiet (by simp)]; exact hl
        | componentName =>
          right
          show (comps (.typeDef _ :: st)).length < b
          rw [comps_quiet (by simp)]
          have := hs.2
          simp only [comps, List.length_cons] at this
          omega
      · simp at e
    | varDecl f =>
      refine ⟨fun s' a e => by simp [popIdent] at e, fun s' a e => ?_⟩
      simp only [popIdent, Prod.mk.injEq] at e
      obtain ⟨rfl, _⟩ := e
      exact hp
    | typeDef f =>
      refine ⟨fun s' a e => by simp [popIdent] at e, fun s' a e => ?_⟩
      simp only [popIdent, Prod.mk.injEq] at e
      obtain ⟨rfl, _⟩ := e
      exact hp

theorem Good.top {b : Nat} {st : List StackObj} (h : Good b st) : Top b st := .inl h

/-- a fact that does not depend on the stack -/
theorem Ht.assume {α : Type} {b : Nat} {p : Prop} {P : List StackObj → Prop} {m : M SrState α}
    {Q : α → List StackObj → Prop} (ht : Tame m) (h : p → Ht b P m Q) : Ht b (fun st => p ∧ P st) m Q :=
  ⟨ht, fun s hs => (h hs.1).run s hs.2⟩

theorem Ht.makeMap {b : Nat} : Ht b (Top b) (makeMap dbg) fun _ => Top b := by
  refine Ht.bind (Ht.popType dbg) fun v => ?_
  refine Ht.assume (Tame.bind (Tame.popType dbg) fun _ => Tame.pushType _) fun hv => ?_
  exact Ht.bind (Ht.popName dbg) fun k => Ht.pushType fun hk => srOk_map hk hv

theorem Ht.intoType {b : Nat} {t : SrType} :
    Ht b (fun st => SrOk t ∧ Good b st) (intoType t) fun ty st => ty.Writable ∧ Good b st := by
  refine ⟨Tame.intoType t, fun s hs => ?_⟩
  simp only [Verif.intoType]
  cases h : t.toTy with
  | none => exact ⟨fun s' a e => by simp at e, fun s' a e => by simp at e⟩
  | some ty =>
    refine ⟨fun s' a e => ?_, fun s' a e => by simp at e⟩
    simp only [Prod.mk.injEq, Outcome.ok.injEq] at e
    obtain ⟨rfl, rfl⟩ := e
    exact .inl ⟨hs.1 _ h, hs.2⟩

end Verif
