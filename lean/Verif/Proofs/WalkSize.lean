import Verif.Spec.Walk
/-
Children are smaller than their parents: recursion over the children of a node is well founded.
-/
namespace Verif

/-! ### Children are smaller -/

/-- all children in the list are smaller than `N` -/
def AllLt (N : Nat) (ks : List Kid) : Prop := ∀ how pos c, Kid.child how pos c ∈ ks → sizeOf c < N

theorem sizeOf_node {α : Type} [SizeOf α] (w : W α) : 1 + sizeOf w.node ≤ sizeOf w := by
  cases w
  simp
  omega

theorem AllLt.nil {N : Nat} : AllLt N [] := by simp [AllLt]

theorem AllLt.kid {α : Type} [SizeOf α] {N : Nat} {how : OnSkip} {mk : α → AnyNode} {w : W α} {ks : List Kid}
    (hmk : ∀ x, sizeOf (mk x) = 1 + sizeOf x) (h : sizeOf w < N) (hk : AllLt N ks) :
    AllLt N (Verif.kid how mk w :: ks) := by
  intro how' pos c hc
  simp only [List.mem_cons, Verif.kid, Kid.child.injEq] at hc
  rcases hc with ⟨_, _, rfl⟩ | hc
  · have := sizeOf_node w
    rw [hmk]
    omega
  · exact hk _ _ _ hc

theorem AllLt.push {N : Nat} {a b : Pos} {ks : List Kid} (hk : AllLt N ks) : AllLt N (.push a b :: ks) := by
  intro how' pos c hc
  simp only [List.mem_cons, reduceCtorEq, false_or] at hc
  exact hk _ _ _ hc

theorem AllLt.panic {N : Nat} : AllLt N [.panic] := by
  intro how' pos c hc
  simp at hc

theorem AllLt.append {N : Nat} {a b : List Kid} (ha : AllLt N a) (hb : AllLt N b) : AllLt N (a ++ b) := by
  intro how' pos c hc
  rcases List.mem_append.1 hc with hc | hc
  · exact ha _ _ _ hc
  · exact hb _ _ _ hc

theorem AllLt.list {α : Type} [SizeOf α] {N : Nat} {how : OnSkip} {mk : α → AnyNode} {l : List (W α)}
    (hmk : ∀ x, sizeOf (mk x) = 1 + sizeOf x) (h : sizeOf l < N) : AllLt N (kidsL how mk l) := by
  intro how' pos c hc
  simp only [kidsL, List.mem_map, Verif.kid, Kid.child.injEq] at hc
  obtain ⟨w, hw, _, _, rfl⟩ := hc
  have := sizeOf_node w
  have := List.sizeOf_lt_of_mem hw
  rw [hmk]
  omega

theorem AllLt.opt {α : Type} [SizeOf α] {N : Nat} {how : OnSkip} {mk : α → AnyNode} {o : Option (W α)}
    (hmk : ∀ x, sizeOf (mk x) = 1 + sizeOf x) (h : sizeOf o < N) : AllLt N (kidsO how mk o) := by
  cases o with
  | none => exact AllLt.nil
  | some w => exact AllLt.kid hmk (by simp at h; omega) AllLt.nil

macro "small" : tactic => `(tactic| (
  simp only [kids]
  repeat' first
    | exact AllLt.nil
    | exact AllLt.panic
    | refine AllLt.push ?_
    | refine AllLt.kid (fun _ => by simp) ?_ ?_
    | refine AllLt.append ?_ ?_
    | refine AllLt.opt (fun _ => by simp) ?_
    | refine AllLt.list (fun _ => by simp) ?_
  all_goals (simp; try omega)))

theorem kids_lt (n : AnyNode) : AllLt (sizeOf n) (kids n) := by
  cases n with
  | typeNameId n =>
    cases n with
    | byteStringType b =>
      intro how pos c hc
      simp only [kids, List.mem_cons, List.not_mem_nil, or_false, Kid.child.injEq] at hc
      obtain ⟨_, _, rfl⟩ := hc
      simp
    | eventType => small
    | typeOrEnumLikeIdentifier x => small
  | statement n =>
    cases n with
    | remoteFetch r =>
      intro how pos c hc
      simp only [kids, List.mem_cons, List.not_mem_nil, or_false, Kid.child.injEq] at hc
      obtain ⟨_, _, rfl⟩ := hc
      simp
    | readFromBC x t args =>
      intro how pos c hc
      simp only [kids, List.mem_map, Option.mem_toList, Kid.child.injEq] at hc
      obtain ⟨a, rfl, _, _, rfl⟩ := hc
      simp
      omega
    | _ => small
  | stmtBlock n =>
    cases n with
    | mk sts =>
      intro how pos c hc
      simp only [kids, List.mem_map, Kid.child.injEq] at hc
      obtain ⟨a, ha, _, _, rfl⟩ := hc
      have := List.sizeOf_lt_of_mem ha
      simp
      omega
  | librarySingle n =>
    cases n with
    | letDefinition x t e => small
    | typeDefinition t cs => cases cs <;> small
  | byteStr n => small
  | _ n => cases n <;> small

theorem kid_lt {n c : AnyNode} {how : OnSkip} {pos : Option (Pos × Pos)} (hc : .child how pos c ∈ kids n) :
    sizeOf c < sizeOf n := kids_lt n _ _ _ hc

end Verif
