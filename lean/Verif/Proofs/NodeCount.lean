import Verif.Spec.Grammar
import Verif.Spec.WalkEvents
/-
The syntax tree of a derivation is linear in the number of tokens: at most five nodes per token.
-/
namespace Verif

set_option linter.unusedSimpArgs false

/-- the number of nodes of a tree that a walk visits -/
def nodes (n : AnyNode) : Nat := (preorder n).length

/-- the number of nodes below a list of children -/
def kidsN : List Kid → Nat
  | [] => 0
  | .child _ _ c :: ks => nodes c + kidsN ks
  | .push _ _ :: ks => kidsN ks
  | .panic :: ks => kidsN ks

theorem nodes_eq (n : AnyNode) : nodes n = 1 + kidsN (kids n) := by
  have h : ∀ (l : List Kid) (f : {k // k ∈ l} → List AnyNode),
      (∀ how pos c h, f ⟨.child how pos c, h⟩ = preorder c) →
      (∀ a b h, f ⟨.push a b, h⟩ = []) → (∀ h, f ⟨.panic, h⟩ = []) →
      (l.attach.flatMap f).length = kidsN l := by
    intro l
    induction l with
    | nil => intro f _ _ _; rfl
    | cons k ks ih =>
      intro f h1 h2 h3
      have := ih (fun x => f ⟨x.1, List.mem_cons_of_mem _ x.2⟩) (fun _ _ _ _ => h1 _ _ _ _)
        (fun _ _ _ => h2 _ _ _) (fun _ => h3 _)
      simp only [List.attach_cons, List.flatMap_cons, List.flatMap_map, List.length_append]
      rw [this]
      cases k with
      | child how pos c => rw [h1, kidsN, nodes]
      | push a b => rw [h2, kidsN]; simp
      | panic => rw [h3, kidsN]; simp
  rw [nodes, preorder, List.length_cons, h (kids n) _ (fun _ _ _ _ => rfl) (fun _ _ _ => rfl) (fun _ => rfl)]
  omega

theorem nodes_pos (n : AnyNode) : 1 ≤ nodes n := by rw [nodes_eq]; omega

theorem kidsN_append : ∀ a b : List Kid, kidsN (a ++ b) = kidsN a + kidsN b
  | [], b => by simp [kidsN]
  | .child _ _ c :: ks, b => by simp [kidsN, kidsN_append ks b, Nat.add_assoc]
  | .push _ _ :: ks, b => by simp [kidsN, kidsN_append ks b]
  | .panic :: ks, b => by simp [kidsN, kidsN_append ks b]

theorem kidsN_kid {α : Type} (how : OnSkip) (mk : α → AnyNode) (w : W α) (ks : List Kid) :
    kidsN (kid how mk w :: ks) = nodes (mk w.node) + kidsN ks := rfl

theorem kidsN_list {α : Type} (how : OnSkip) (mk : α → AnyNode) : ∀ l : List (W α),
    kidsN (kidsL how mk l) = (l.map fun w => nodes (mk w.node)).sum
  | [] => rfl
  | w :: l => by
    have := kidsN_list how mk l
    simp only [kidsL] at this
    simp only [kidsL, List.map_cons, List.sum_cons, kidsN_kid, this]

theorem kidsN_opt {α : Type} (how : OnSkip) (mk : α → AnyNode) (o : Option (W α)) :
    kidsN (kidsO how mk o) = (o.map fun w => nodes (mk w.node)).getD 0 := by
  cases o <;> rfl

theorem kidsN_map {α : Type} (how : OnSkip) (mk : α → AnyNode) : ∀ l : List α,
    kidsN (l.map fun x => Kid.child how none (mk x)) = (l.map fun x => nodes (mk x)).sum
  | [] => rfl
  | x :: l => by simp only [List.map_cons, List.sum_cons, kidsN, kidsN_map how mk l]

theorem sum_append_map {α : Type} (f : α → Nat) (a b : List α) :
    ((a ++ b).map f).sum = (a.map f).sum + (b.map f).sum := by simp

theorem sum_toList_map {α : Type} (f : α → Nat) (o : Option α) :
    (o.toList.map f).sum = (o.map f).getD 0 := by cases o <;> simp

theorem sum_getD_map {α : Type} (f : α → Nat) (o : Option (List α)) :
    ((o.getD []).map f).sum = (o.map fun l => (l.map f).sum).getD 0 := by cases o <;> simp

/-- the number of nodes of the value of a nonterminal -/
def nodesV : (n : NT) → Val n → Nat
  | .byteString => fun v => nodes (.byteStr v)
  | .typeName => fun v => nodes (.typeNameId v.node)
  | .importedName => fun v => nodes (.importedName v.node)
  | .importDecls => fun v => nodes (.importDecls v.node)
  | .metaId => fun v => nodes (.metaId v.node)
  | .varId => fun v => nodes (.varId v.node)
  | .builtinArgs => fun v => nodes (.builtinArgs v.node)
  | .remaining => fun v => nodes (.scillaType v.node)
  | .funSig => fun v => nodes (.scillaType v.node)
  | .scillaType => fun v => nodes (.scillaType v.node)
  | .typeArg => fun v => nodes (.typeArg v.node)
  | .addressType => fun v => nodes (.addrType v.node)
  | .addressFieldList => fun v => (v.map fun x => nodes (.addrField x.node)).sum
  | .nextAddressField => fun v => nodes (.addrField v.node)
  | .addressField => fun v => nodes (.addrField v.node)
  | .mapKey => fun v => nodes (.mapKey v.node)
  | .mapValue => fun v => nodes (.mapValue v.node)
  | .mapValueArgs => fun v => nodes (.mapValueArgs v.node)
  | .program => fun v => nodes (.program v)
  | .libraryDef => fun v => nodes (.libraryDef v.node)
  | .librarySingle => fun v => nodes (.librarySingle v.node)
  | .typedId => fun v => nodes (.typedId v.node)
  | .typeAnn => fun v => nodes (.typeAnn v.node)
  | .typeAlt => fun v => nodes (.typeAlt v.node)
  | .mapValueAllowing => fun v => nodes (.mapValueAllowing v.node)
  | .contractTypeArgs => fun v => nodes (.contractTypeArgs v.node)
  | .fullExpr => fun v => nodes (.fullExpr v.node)
  | .pmExprClause => fun v => nodes (.pmExprClause v.node)
  | .pattern => fun v => nodes (.pattern v.node)
  | .argPattern => fun v => nodes (.argPattern v.node)
  | .nextMessage => fun v => nodes (.messageEntry v.node)
  | .messageEntry => fun v => nodes (.messageEntry v.node)
  | .atomic => fun v => nodes (.atomic v.node)
  | .valueLit => fun v => nodes (.valueLit v.node)
  | .statement => fun v => nodes (.statement v)
  | .nextStatement => fun v => nodes (.statement v)
  | .stmtBlock => fun v => nodes (.stmtBlock v.node)
  | .bcFetchArgs => fun v => nodes (.bcFetchArgs v)
  | .componentId => fun v => nodes (.componentId v.node)
  | .pmClause => fun v => nodes (.pmClause v.node)
  | .remoteFetch => fun v => nodes (.remoteFetch v)
  | .mapAccess => fun v => nodes (.mapAccess v.node)
  | .paramPair => fun v => nodes (.paramPair v.node)
  | .nextParamPair => fun v => nodes (.paramPair v.node)
  | .compParams => fun v => nodes (.compParams v.node)
  | .compDef => fun v => nodes (.compDef v.node)
  | .transDef => fun v => nodes (.transDef v.node)
  | .procDef => fun v => nodes (.procDef v.node)
  | .compBody => fun v => nodes (.compBody v.node)
  | .contractDef => fun v => nodes (.contractDef v.node)
  | .contractField => fun v => nodes (.contractField v.node)
  | .withConstraint => fun v => nodes (.withConstraint v.node)
  | .hexNumber => fun _ => 0
  | .signedInt => fun _ => 0
  | .regularId => fun _ => 0
  | .specialId => fun _ => 0
  | .customId => fun _ => 0
  | .templateId => fun _ => 0
  | .stringLit => fun _ => 0
  | .star n => fun v => (v.map fun x => nodesV n x).sum
  | .plus n => fun v => (v.map fun x => nodesV n x).sum
  | .opt n => fun v => (v.map fun x => nodesV n x).getD 0

/-- how many nodes fewer than five per token a nonterminal has -/
def slack : NT → Nat
  | .byteString => 4
  | .typeName => 3
  | .importedName => 2
  | .metaId => 2
  | .varId => 4
  | .builtinArgs => 1
  | .remaining | .funSig | .scillaType | .typeArg | .mapKey | .mapValue | .mapValueArgs => 1
  | .addressType => 2
  | .fullExpr => 1
  | .pattern | .argPattern => 1
  | .atomic => 2
  | .valueLit => 3
  | .statement => 1
  | .nextStatement => 1
  | .componentId => 2
  | .remoteFetch => 2
  | .hexNumber | .signedInt | .regularId | .specialId | .customId | .templateId | .stringLit => 5
  | .bcFetchArgs => 1
  | .typedId => 4
  | .typeAnn => 3
  | .paramPair => 1
  | .transDef | .procDef => 1
  | _ => 0

macro "unfoldV" : tactic => `(tactic| (
  simp only [nodesV, slack, mkW] at *
  try dsimp only [Val] at *
  try simp only [List.map_cons, List.map_nil, List.sum_cons, List.sum_nil,
    Option.map_some, Option.map_none, Option.getD_some, Option.getD_none,
    List.length_append, List.length_cons, List.length_nil] at *))

macro "unfoldN" : tactic => `(tactic| (
  rw [nodes_eq]
  simp only [kids, kidsN_kid, kidsN_list, kidsN_opt, kidsN_map, kidsN_append, kidsN,
    sum_append_map, sum_toList_map, sum_getD_map, List.map_cons, List.map_nil, List.sum_cons, List.sum_nil,
    Option.map_some, Option.map_none, Option.getD_some, Option.getD_none]))

theorem Derives.nodes_le {n : NT} {w : List STok} {v : Val n} (d : Derives n w v) :
    nodesV n v + slack n ≤ 5 * w.length := by
  induction d <;> (try subst_vars) <;> (first | (unfoldV; omega) | (unfoldV; unfoldN; omega) | skip)
  case importMore prev _ _ _ _ _ _ _ =>
    unfoldV
    rename_i h _
    rw [nodes_eq (.importDecls prev.node)] at h
    simp only [kids, kidsN_list] at h
    unfoldN; omega
  case builtinMore prev _ _ _ _ _ =>
    unfoldV
    rename_i h _
    rw [nodes_eq (.builtinArgs prev.node)] at h
    simp only [kids, kidsN_list] at h
    unfoldN; omega
  case valMap => unfoldV; unfoldN; unfoldN; omega

/-- at most five nodes per token -/
theorem nodes_le_tokens {w : List STok} {p : NodeProgram} (d : Derives .program w p) :
    (preorder (.program p)).length ≤ 5 * w.length := by
  have := d.nodes_le
  simpa [nodesV, slack, nodes] using this

theorem nodes_contract_le {w : List STok} {p : NodeProgram} (d : Derives .program w p) :
    nodes (.contractDef p.contractDefinition.node) ≤ 5 * w.length := by
  refine Nat.le_trans ?_ (nodes_le_tokens d)
  rw [← nodes, nodes_eq (.program p)]
  simp only [kids, kidsN_append, kidsN_kid]
  omega

end Verif
