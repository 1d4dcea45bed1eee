import Verif.Spec.Occurs
import Verif.Spec.Builds
/-
The variants used in the values that the actions of the grammar file compute are those written in the actions.
-/
namespace Verif
open RV (Occurs)

variable (P : Str → Prop)

/-- all variants and structures in `v` satisfy `P` -/
def RV.All (v : RV) : Prop := ∀ path, v.Uses path → P path

variable {P}

theorem all_str (s : Str) : (RV.str s).All P := by rintro p ⟨fs, vs, h⟩; cases h
theorem all_pos (s : Pos) : (RV.pos s).All P := by rintro p ⟨fs, vs, h⟩; cases h

theorem all_vec {l : List RV} : (RV.vec l).All P ↔ ∀ v ∈ l, v.All P := by
  constructor
  · rintro h v hv p ⟨fs, vs, ho⟩; exact h p ⟨fs, vs, .vec hv ho⟩
  · rintro h p ⟨fs, vs, ho⟩
    cases ho with
    | vec hv ho => exact h _ hv p ⟨fs, vs, ho⟩

theorem all_node {q : Str} {gs : List Str} {us : List RV} :
    (RV.node q gs us).All P ↔ P q ∧ ∀ v ∈ us, v.All P := by
  constructor
  · intro h
    refine ⟨h q ⟨_, _, .refl⟩, ?_⟩
    rintro v hv p ⟨fs, vs, ho⟩; exact h p ⟨fs, vs, .node hv ho⟩
  · rintro ⟨hq, h⟩ p ⟨fs, vs, ho⟩
    cases ho with
    | refl => exact hq
    | node hv ho => exact h _ hv p ⟨fs, vs, ho⟩

mutual
/-- the variants written in an expression -/
def Ex.paths : Ex → List Str
  | .var _ => []
  | .text _ => []
  | .node p _ es => p :: Ex.pathsL es
  | .vec es => Ex.pathsL es
  | .field e _ => e.paths
  | .orElse e d => e.paths ++ d.paths
  | .block ss e => St.pathsL ss ++ e.paths
def Ex.pathsL : List Ex → List Str
  | [] => []
  | e :: es => e.paths ++ Ex.pathsL es
def St.paths : St → List Str
  | .let_ _ e => e.paths
  | .push _ _ e => e.paths
  | .for_ _ e s => e.paths ++ s.paths
  | .ifSome _ e s => e.paths ++ s.paths
def St.pathsL : List St → List Str
  | [] => []
  | s :: ss => s.paths ++ St.pathsL ss
end

def Scope.All (P : Str → Prop) (ρ : Scope) : Prop := ∀ x ∈ ρ, x.2.All P

theorem Scope.All.get {ρ : Scope} (h : Scope.All P ρ) {x : Str} {v : RV} (e : ρ.get x = some v) : v.All P := by
  induction ρ with
  | nil => simp [Scope.get] at e
  | cons y ρ ih =>
    obtain ⟨y, u⟩ := y
    simp only [Scope.get] at e
    split at e
    · injection e with e; subst e; exact h (y, u) (by simp)
    · exact ih (fun z hz => h z (by simp [hz])) e

theorem Scope.All.set {ρ : Scope} (h : Scope.All P ρ) {x : Str} {v : RV} (hv : v.All P) : Scope.All P (ρ.set x v) := by
  induction ρ with
  | nil => exact h
  | cons y ρ ih =>
    obtain ⟨y, u⟩ := y
    simp only [Scope.set]
    split
    · intro z hz
      rcases List.mem_cons.1 hz with rfl | hz
      · exact hv
      · exact h z (by simp [hz])
    · intro z hz
      rcases List.mem_cons.1 hz with rfl | hz
      · exact h _ (by simp)
      · exact ih (fun z hz => h z (by simp [hz])) z hz

theorem Scope.All.cons {ρ : Scope} (h : Scope.All P ρ) {x : Str} {v : RV} (hv : v.All P) : Scope.All P ((x, v) :: ρ) := by
  intro z hz
  rcases List.mem_cons.1 hz with rfl | hz
  · exact hv
  · exact h z hz

theorem Scope.All.tail {ρ : Scope} (h : Scope.All P ρ) : Scope.All P ρ.tail := fun z hz => h z (List.mem_of_mem_tail hz)

theorem rvGet_mem {f : Str} {fs : List Str} {vs : List RV} {v : RV} (h : RV.get f fs vs = some v) : v ∈ vs := by
  induction fs generalizing vs with
  | nil => simp [RV.get] at h
  | cons g gs ih =>
    cases vs with
    | nil => simp [RV.get] at h
    | cons u us =>
      simp only [RV.get] at h
      split at h
      · injection h with h; subst h; simp
      · exact List.mem_cons_of_mem _ (ih h)

theorem rvSet_mem {f : Str} {x v : RV} {fs : List Str} {vs : List RV} (h : v ∈ RV.set f x fs vs) : v = x ∨ v ∈ vs := by
  induction fs generalizing vs with
  | nil => simp only [RV.set] at h; exact .inr h
  | cons g gs ih =>
    cases vs with
    | nil => simp [RV.set] at h
    | cons u us =>
      simp only [RV.set] at h
      split at h
      · rcases List.mem_cons.1 h with rfl | h
        · exact .inl rfl
        · exact .inr (by simp [h])
      · rcases List.mem_cons.1 h with rfl | h
        · exact .inr (by simp)
        · exact (ih h).imp id (fun h => by simp [h])

theorem all_pushAt {x : RV} (hx : x.All P) : ∀ (path : List Str) {u u' : RV}, u.All P → RV.pushAt x path u = some u' → u'.All P
  | [], .vec l, u', hu, h => by
    simp only [RV.pushAt, Option.some.injEq] at h; subst h
    rw [all_vec] at hu ⊢
    intro v hv
    rcases List.mem_append.1 hv with hv | hv
    · exact hu v hv
    · rw [List.mem_singleton.1 hv]; exact hx
  | [], .str _, _, _, h => by simp [RV.pushAt] at h
  | [], .pos _, _, _, h => by simp [RV.pushAt] at h
  | [], .node .., _, _, h => by simp [RV.pushAt] at h
  | f :: path, .node p fs vs, u', hu, h => by
    simp only [RV.pushAt] at h
    rw [all_node] at hu
    split at h
    · rename_i v hv
      split at h
      · rename_i v' hv'
        injection h with h; subst h
        rw [all_node]
        refine ⟨hu.1, fun w hw => ?_⟩
        rcases rvSet_mem hw with rfl | hw
        · exact all_pushAt hx path (hu.2 v (rvGet_mem hv)) hv'
        · exact hu.2 w hw
      · simp at h
    · simp at h
  | _ :: _, .str _, _, _, h => by simp [RV.pushAt] at h
  | _ :: _, .pos _, _, _, h => by simp [RV.pushAt] at h
  | _ :: _, .vec _, _, _, h => by simp [RV.pushAt] at h

theorem all_option {v u : RV} (hv : v.All P) (h : v.option = some (some u)) : u.All P := by
  cases v with
  | node p fs vs =>
    simp only [RV.option] at h
    split at h
    · simp at h
    · split at h
      · split at h
        · simp only [Option.some.injEq] at h; subst h
          rw [all_node] at hv
          exact hv.2 _ (by simp)
        · simp at h
      · simp at h
  | _ => simp [RV.option] at h

theorem all_foldlM {f : Scope → RV → Option Scope} (l : List RV)
    (hf : ∀ ρ v ρ', Scope.All P ρ → v ∈ l → f ρ v = some ρ' → Scope.All P ρ') :
    ∀ ρ ρ', Scope.All P ρ → l.foldlM f ρ = some ρ' → Scope.All P ρ' := by
  induction l with
  | nil => intro ρ ρ' hρ h; simp only [List.foldlM_nil] at h; injection h with h; subst h; exact hρ
  | cons v l ih =>
    intro ρ ρ' hρ h
    rw [List.foldlM_cons] at h
    cases e : f ρ v with
    | none => rw [e] at h; simp at h
    | some ρ1 =>
      rw [e] at h
      exact ih (fun ρ v ρ' h1 h2 h3 => hf ρ v ρ' h1 (by simp [h2]) h3) ρ1 ρ' (hf ρ v ρ1 hρ (by simp) e) h

mutual
theorem all_eval : ∀ (e : Ex) (ρ : Scope), Scope.All P ρ → (∀ p ∈ e.paths, P p) → ∀ v, e.eval ρ = some v → v.All P
  | .var x, ρ, hρ, _, v, h => by rw [Ex.eval] at h; exact hρ.get h
  | .text s, ρ, hρ, _, v, h => by rw [Ex.eval] at h; injection h with h; subst h; exact all_str s
  | .node p fs es, ρ, hρ, hp, v, h => by
    rw [Ex.eval] at h
    simp only [Ex.paths, List.mem_cons] at hp
    split at h
    · rename_i vs hv
      injection h with h; subst h
      rw [all_node]
      exact ⟨hp p (.inl rfl), all_evals es ρ hρ (fun q hq => hp q (.inr hq)) vs hv⟩
    · simp at h
  | .vec es, ρ, hρ, hp, v, h => by
    rw [Ex.eval] at h
    simp only [Ex.paths] at hp
    split at h
    · rename_i vs hv
      injection h with h; subst h
      rw [all_vec]
      exact all_evals es ρ hρ hp vs hv
    · simp at h
  | .field e f, ρ, hρ, hp, v, h => by
    rw [Ex.eval] at h
    simp only [Ex.paths] at hp
    split at h
    · rename_i q gs vs hv
      have := all_eval e ρ hρ hp _ hv
      rw [all_node] at this
      exact this.2 v (rvGet_mem h)
    · simp at h
  | .orElse e d, ρ, hρ, hp, v, h => by
    rw [Ex.eval] at h
    simp only [Ex.paths, List.mem_append] at hp
    split at h
    · rename_i u hu
      have h1 := all_eval e ρ hρ (fun q hq => hp q (.inl hq)) u hu
      split at h
      · rename_i w hw
        injection h with h; subst h
        exact all_option h1 hw
      · exact all_eval d ρ hρ (fun q hq => hp q (.inr hq)) v h
      · simp at h
    · simp at h
  | .block ss e, ρ, hρ, hp, v, h => by
    rw [Ex.eval] at h
    simp only [Ex.paths, List.mem_append] at hp
    split at h
    · rename_i ρ' h'
      exact all_eval e ρ' (all_execs ss ρ hρ (fun q hq => hp q (.inl hq)) ρ' h') (fun q hq => hp q (.inr hq)) v h
    · simp at h
theorem all_evals : ∀ (es : List Ex) (ρ : Scope), Scope.All P ρ → (∀ p ∈ Ex.pathsL es, P p) →
    ∀ vs, Ex.evals ρ es = some vs → ∀ v ∈ vs, v.All P
  | [], ρ, hρ, _, vs, h => by rw [Ex.evals] at h; injection h with h; subst h; simp
  | e :: es, ρ, hρ, hp, vs, h => by
    rw [Ex.evals] at h
    simp only [Ex.pathsL, List.mem_append] at hp
    split at h
    · rename_i v hv
      split at h
      · rename_i us hus
        injection h with h; subst h
        intro w hw
        rcases List.mem_cons.1 hw with rfl | hw
        · exact all_eval e ρ hρ (fun q hq => hp q (.inl hq)) _ hv
        · exact all_evals es ρ hρ (fun q hq => hp q (.inr hq)) us hus w hw
      · simp at h
    · simp at h
theorem all_exec : ∀ (s : St) (ρ : Scope), Scope.All P ρ → (∀ p ∈ s.paths, P p) → ∀ ρ', s.exec ρ = some ρ' → Scope.All P ρ'
  | .let_ x e, ρ, hρ, hp, ρ', h => by
    rw [St.exec] at h
    simp only [St.paths] at hp
    split at h
    · rename_i v hv
      injection h with h; subst h
      exact hρ.cons (all_eval e ρ hρ hp v hv)
    · simp at h
  | .push x path e, ρ, hρ, hp, ρ', h => by
    rw [St.exec] at h
    simp only [St.paths] at hp
    split at h
    · rename_i v hv
      split at h
      · rename_i u hu
        split at h
        · rename_i u' hu'
          injection h with h; subst h
          exact hρ.set (all_pushAt (all_eval e ρ hρ hp v hv) path (hρ.get hu) hu')
        · simp at h
      · simp at h
    · simp at h
  | .for_ y e s, ρ, hρ, hp, ρ', h => by
    rw [St.exec] at h
    simp only [St.paths, List.mem_append] at hp
    split at h
    · rename_i l hl
      have h1 := all_eval e ρ hρ (fun q hq => hp q (.inl hq)) _ hl
      rw [all_vec] at h1
      refine all_foldlM l ?_ ρ ρ' hρ h
      intro ρ v ρ' hρ hv h2
      cases e2 : St.exec ((y, v) :: ρ) s with
      | none => rw [e2] at h2; simp at h2
      | some ρ2 =>
        rw [e2] at h2
        simp only [Option.map_some, Option.some.injEq] at h2; subst h2
        exact (all_exec s _ (hρ.cons (h1 v hv)) (fun q hq => hp q (.inr hq)) ρ2 e2).tail
    · simp at h
  | .ifSome y e s, ρ, hρ, hp, ρ', h => by
    rw [St.exec] at h
    simp only [St.paths, List.mem_append] at hp
    split at h
    · rename_i v hv
      have h1 := all_eval e ρ hρ (fun q hq => hp q (.inl hq)) _ hv
      split at h
      · rename_i u hu
        cases e2 : St.exec ((y, u) :: ρ) s with
        | none => rw [e2] at h; simp at h
        | some ρ2 =>
          rw [e2] at h
          simp only [Option.map_some, Option.some.injEq] at h; subst h
          exact (all_exec s _ (hρ.cons (all_option h1 hu)) (fun q hq => hp q (.inr hq)) ρ2 e2).tail
      · injection h with h; subst h; exact hρ
      · simp at h
    · simp at h
theorem all_execs : ∀ (ss : List St) (ρ : Scope), Scope.All P ρ → (∀ p ∈ St.pathsL ss, P p) →
    ∀ ρ', St.execs ρ ss = some ρ' → Scope.All P ρ'
  | [], ρ, hρ, _, ρ', h => by rw [St.execs] at h; injection h with h; subst h; exact hρ
  | s :: ss, ρ, hρ, hp, ρ', h => by
    rw [St.execs] at h
    simp only [St.pathsL, List.mem_append] at hp
    split at h
    · rename_i ρ1 h1
      exact all_execs ss ρ1 (all_exec s ρ hρ (fun q hq => hp q (.inl hq)) ρ1 h1) (fun q hq => hp q (.inr hq)) ρ' h
    · simp at h
end

theorem all_bindNames (xs : List (Option Str)) (vs : List RV) (h : ∀ v ∈ vs, v.All P) : Scope.All P (bindNames xs vs) := by
  induction xs generalizing vs with
  | nil => simp [bindNames, Scope.All]
  | cons x xs ih =>
    cases vs with
    | nil => cases x <;> simp [bindNames, Scope.All]
    | cons v vs =>
      have h1 := ih vs (fun u hu => h u (by simp [hu]))
      cases x with
      | none => simpa only [bindNames] using h1
      | some x => simpa only [bindNames] using h1.cons (h v (by simp))

/-- the variants written in the actions of the grammar file, and those of `Option` -/
def actionPaths : List Str := [str! "None", str! "Some"] ++ fileActions.flatMap (·.body.paths)

theorem Builds.uses {α : List FSym} {ps : List Piece} (h : Builds α ps) : ∀ p ∈ ps, p.2.All (· ∈ actionPaths) := by
  have hn : RV.none.All (· ∈ actionPaths) := all_node.2 ⟨by simp [actionPaths], by simp⟩
  have cons : ∀ {u : List STok} {v : RV} {ps : List Piece}, v.All (· ∈ actionPaths) →
      (∀ p ∈ ps, p.2.All (· ∈ actionPaths)) → ∀ p ∈ (u, v) :: ps, p.2.All (· ∈ actionPaths) := by
    intro u v ps h1 h2 p hp
    rcases List.mem_cons.1 hp with rfl | hp
    · exact h1
    · exact h2 p hp
  induction h with
  | nil => simp
  | tok _ _ ih => exact cons (all_str _) ih
  | @non i q a α qs ps v _ ha _ hv _ ih1 ih2 =>
    refine cons ?_ ih2
    refine all_eval a.body _ ?_ ?_ v hv
    · intro z hz
      rcases List.mem_append.1 hz with hz | hz
      · obtain ⟨m, _, rfl⟩ := List.mem_map.1 hz; exact all_pos _
      · refine all_bindNames _ _ ?_ z hz
        intro v hv
        simp only [List.map_map, List.mem_map, Function.comp_def] at hv
        obtain ⟨p, hp, rfl⟩ := hv
        exact ih1 p hp
    · intro p hp
      simp only [actionPaths, List.mem_append, List.mem_flatMap]
      exact .inr ⟨a, List.mem_of_getElem? ha, hp⟩
  | optNone _ ih => exact cons hn ih
  | optSome _ _ ih1 ih2 => exact cons (all_node.2 ⟨by simp [actionPaths], by simpa using ih1⟩) ih2
  | starNil _ ih => exact cons (all_vec.2 (by simp)) ih
  | starCons _ _ ih1 ih2 =>
    refine cons (all_vec.2 ?_) (fun p hp => ih2 p (by simp [hp]))
    intro v hv
    rcases List.mem_cons.1 hv with rfl | hv
    · exact ih1 (_, _) (List.Mem.head _)
    · exact all_vec.1 (ih2 (_, _) (List.Mem.head _)) v hv
  | plus _ _ ih1 ih2 =>
    refine cons (all_vec.2 ?_) (fun p hp => ih2 p (by simp [hp]))
    intro v hv
    rcases List.mem_cons.1 hv with rfl | hv
    · exact ih1 (_, _) (List.Mem.head _)
    · exact all_vec.1 (ih2 (_, _) (List.Mem.head _)) v hv

end Verif
