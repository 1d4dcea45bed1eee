import Verif.Proofs.WalkRun
/-
The stack of source positions during a walk.
-/
namespace Verif

theorem stackAfter_append (a b : List Event) (st) :
    stackAfter (a ++ b) st = stackAfter b (stackAfter a st) := by
  induction a generalizing st with
  | nil => rfl
  | cons e a ih => cases e <;> exact ih _

theorem tops_append (a b : List Event) (st) :
    tops (a ++ b) st = tops a st ++ tops b (stackAfter a st) := by
  induction a generalizing st with
  | nil => rfl
  | cons e a ih => cases e <;> simp [tops, stackAfter, ih]

/-- the number of extra pushes in the list of children of a node -/
def extra (ks : List Kid) : Nat := ks.countP fun | .push _ _ => true | _ => false

theorem extra_kidsL {α : Type} {how : OnSkip} {mk : α → AnyNode} {l : List (W α)} :
    extra (kidsL how mk l) = 0 := by
  simp only [extra, kidsL, List.countP_eq_zero, List.mem_map]
  rintro k ⟨w, _, rfl⟩
  simp [kid]
theorem extra_kidsO {α : Type} {how : OnSkip} {mk : α → AnyNode} {l : Option (W α)} :
    extra (kidsO how mk l) = 0 := by
  simp only [extra, kidsO, List.countP_eq_zero, List.mem_map]
  rintro k ⟨w, _, rfl⟩
  simp [kid]
theorem extra_map {α : Type} {how : OnSkip} {mk : α → AnyNode} {l : List α} :
    extra (l.map fun a => .child how none (mk a)) = 0 := by
  simp only [extra, List.countP_eq_zero, List.mem_map]
  rintro k ⟨w, _, rfl⟩
  simp
theorem extra_append {a b : List Kid} : extra (a ++ b) = extra a + extra b := by
  simp [extra]
theorem extra_kid {α : Type} {how : OnSkip} {mk : α → AnyNode} {w : W α} {ks : List Kid} :
    extra (kid how mk w :: ks) = extra ks := by
  simp [extra, kid]
theorem extra_child {how : OnSkip} {pos} {c : AnyNode} {ks : List Kid} :
    extra (.child how pos c :: ks) = extra ks := by
  simp [extra]
theorem extra_push {a b : Pos} {ks : List Kid} : extra (.push a b :: ks) = extra ks + 1 := by
  simp [extra]
theorem extra_panic {ks : List Kid} : extra (.panic :: ks) = extra ks := by
  simp [extra]
theorem extra_nil : extra [] = 0 := rfl

theorem extra_kids (n : AnyNode) : extra (kids n) = if n.pushesMore then 1 else 0 := by
  cases n with
  | messageEntry n => cases n <;> simp [kids, AnyNode.pushesMore, extra_push, extra_kid, extra_nil]
  | valueLit n => cases n <;> simp [kids, AnyNode.pushesMore, extra_push, extra_kid, extra_nil]
  | pmClause n => cases n; simp [kids, AnyNode.pushesMore, extra_push, extra_kid, extra_kidsO]
  | importDecls n => simp [kids, AnyNode.pushesMore, extra_kidsL]
  | builtinArgs n => simp [kids, AnyNode.pushesMore, extra_kidsL]
  | contractTypeArgs n => simp [kids, AnyNode.pushesMore, extra_kidsL]
  | bcFetchArgs n => simp [kids, AnyNode.pushesMore, extra_kidsL]
  | compParams n => simp [kids, AnyNode.pushesMore, extra_kidsL]
  | libraryDef n => simp [kids, AnyNode.pushesMore, extra_kidsL]
  | program n => simp [kids, AnyNode.pushesMore, extra_kid, extra_nil, extra_kidsO, extra_append]
  | contractDef n =>
    simp [kids, AnyNode.pushesMore, extra_kid, extra_kidsO, extra_kidsL, extra_append]
  | byteStr n => rfl
  | _ n =>
    cases n <;> simp [kids, AnyNode.pushesMore, extra_kid, extra_nil, extra_kidsL, extra_kidsO,
      extra_child, extra_map, extra_panic]

theorem count_flatMap_pre (ks : List Kid) :
    (ks.flatMap kidPre).countP AnyNode.pushesMore =
      (ks.map fun k => (kidPre k).countP AnyNode.pushesMore).sum := by
  induction ks with
  | nil => rfl
  | cons k ks ih => simp [ih]

theorem stack_walk (n : AnyNode) (st) :
    ∃ L, stackAfter (walk n) st = L ++ st ∧ L.length = (preorder n).countP AnyNode.pushesMore := by
  induction n using tree_induction generalizing st with
  | h n ih =>
    rw [walk_eq, preorder_eq]
    have key : ∀ ks : List Kid,
        (∀ how pos c, .child how pos c ∈ ks → ∀ st, ∃ L, stackAfter (walk c) st = L ++ st ∧
          L.length = (preorder c).countP AnyNode.pushesMore) → ∀ st,
        ∃ L, stackAfter (ks.flatMap (kidEv fun _ => false)) st = L ++ st ∧
          L.length = extra ks + (ks.flatMap kidPre).countP AnyNode.pushesMore := by
      intro ks
      induction ks with
      | nil => exact fun _ st => ⟨[], rfl, rfl⟩
      | cons k ks ih' =>
        intro h st
        have ih' := ih' (fun how pos c hc => h how pos c (by simp [hc]))
        rw [List.flatMap_cons, stackAfter_append, List.flatMap_cons, List.countP_append]
        cases k with
        | panic =>
          obtain ⟨L, e, hl⟩ := ih' st
          refine ⟨L, e, ?_⟩
          simp [extra_panic, kidPre, hl]
        | push a b =>
          obtain ⟨L, e, hl⟩ := ih' ((a, b) :: st)
          refine ⟨L ++ [(a, b)], ?_, ?_⟩
          · simp only [kidEv, stackAfter]; rw [e]; simp
          · simp [extra_push, kidPre, hl]; omega
        | child how pos c =>
          have hc := h how pos c (by simp)
          rw [extra_child]
          have : ∃ L, stackAfter (around pos (walk c)) st = L ++ st ∧
              L.length = (preorder c).countP AnyNode.pushesMore := by
            rcases pos with _ | ⟨a, b⟩
            · exact hc st
            · obtain ⟨L, e, hl⟩ := hc ((a, b) :: st)
              simp only [around, stackAfter, stackAfter_append, e]
              rcases L with _ | ⟨x, L⟩
              · exact ⟨[], rfl, hl⟩
              · exact ⟨L ++ [(a, b)], by simp, by simpa using hl⟩
          obtain ⟨L1, e1, h1⟩ := this
          obtain ⟨L2, e2, h2⟩ := ih' (L1 ++ st)
          refine ⟨L2 ++ L1, ?_, ?_⟩
          · simp only [kidEv]
            rw [show walkSkip (fun _ => false) c = walk c from rfl, e1, e2, List.append_assoc]
          · simp [kidPre, h1, h2]; omega
    obtain ⟨L, e, hl⟩ := key (kids n) ih st
    refine ⟨L, ?_, ?_⟩
    · simp only [stackAfter, stackAfter_append, e]
    · rw [hl, List.countP_cons, extra_kids]; omega

/-! ### No underflow -/

/-- no prefix has more pops than pushes -/
def Safe (es : List Event) : Prop := ∀ p q, es = p ++ q → pops p ≤ pushes p

theorem pops_append (a b : List Event) : pops (a ++ b) = pops a + pops b := by simp [pops]
theorem pushes_append (a b : List Event) : pushes (a ++ b) = pushes a + pushes b := by simp [pushes]

theorem Safe.append {a b : List Event} (ha : Safe a) (hb : Safe b) : Safe (a ++ b) := by
  intro p q h
  rcases List.append_eq_append_iff.1 h with ⟨x, rfl, hx⟩ | ⟨x, rfl, hx⟩
  · have h1 := ha a [] (by simp)
    have h2 := hb x q hx
    rw [pops_append, pushes_append]
    omega
  · exact ha p x rfl

theorem Safe.nil : Safe [] := by
  intro p q h
  have : p = [] := by cases p <;> simp_all
  subst this
  exact Nat.le_refl _

theorem Safe.wrap {es : List Event} (a b : Pos) (h : Safe es) : Safe (.push a b :: (es ++ [.pop])) := by
  intro p q e
  cases p with
  | nil => exact Nat.le_refl _
  | cons x p =>
    simp only [List.cons_append, List.cons.injEq] at e
    obtain ⟨rfl, e⟩ := e
    have h0 := h es [] (by simp)
    have c1 : pops (.push a b :: p) = pops p := by simp [pops]
    have c2 : pushes (.push a b :: p) = pushes p + 1 := by simp [pushes]
    rw [c1, c2]
    rcases List.append_eq_append_iff.1 e with ⟨x, rfl, hx⟩ | ⟨x, rfl, _⟩
    · have : pops x ≤ 1 := by
        rcases x with _ | ⟨y, x⟩
        · simp [pops]
        · simp only [List.cons_append, List.cons.injEq, List.nil_eq_append_iff] at hx
          obtain ⟨rfl, rfl, _⟩ := hx
          simp [pops]
      rw [pops_append, pushes_append]
      omega
    · have := h p x rfl
      omega

theorem Safe.one {e : Event} (h : e ≠ .pop) : Safe [e] := by
  intro p q he
  rcases p with _ | ⟨x, p⟩
  · exact Nat.le_refl _
  · simp only [List.cons_append, List.cons.injEq, List.nil_eq_append_iff] at he
    obtain ⟨rfl, rfl, _⟩ := he
    cases e <;> simp_all [pops, pushes]

theorem safe_walk (n : AnyNode) : Safe (walk n) := by
  induction n using tree_induction with
  | h n ih =>
    rw [walk_eq]
    rw [← List.singleton_append]
    refine Safe.append (Safe.one (by simp)) (Safe.append ?_ (Safe.one (by simp)))
    revert ih
    generalize kids n = ks
    intro ih
    induction ks with
    | nil => exact .nil
    | cons k ks ih' =>
      rw [List.flatMap_cons]
      refine Safe.append ?_ (ih' (fun how pos c hc => ih how pos c (by simp [hc])))
      cases k with
      | child how pos c =>
        have := ih how pos c (by simp)
        rcases pos with _ | ⟨a, b⟩
        · exact this
        · exact Safe.wrap a b this
      | push a b => exact Safe.one (by simp)
      | panic => exact .nil

/-! ### The position of a node is on top when Enter is called -/

def kidPlaced : Kid → List (AnyNode × Option (Pos × Pos))
  | .child _ pos c => placed pos c
  | _ => []

theorem placed_eq (pos) (n : AnyNode) : placed pos n = (n, pos) :: (kids n).flatMap kidPlaced := by
  rw [placed]
  congr 1
  rw [List.flatMap_subtype (g := kidPlaced)]
  · rw [List.unattach_attach]
  · intro k _
    cases k <;> rfl

theorem pointwise_append {α β : Type} {R : α → β → Prop} {a c : List α} {b d : List β}
    (h1 : Pointwise R a b) (h2 : Pointwise R c d) : Pointwise R (a ++ c) (b ++ d) := by
  induction h1 with
  | nil => exact h2
  | cons h _ ih => exact .cons h ih

theorem tops_walk (n : AnyNode) (pos : Option (Pos × Pos)) (st : List (Pos × Pos))
    (hp : pos ≠ none → st.head? = pos) : Pointwise OwnTop (placed pos n) (tops (walk n) st) := by
  induction n using tree_induction generalizing pos st with
  | h n ih =>
    rw [placed_eq, walk_eq]
    simp only [tops, tops_append, List.append_nil]
    refine .cons ⟨rfl, hp⟩ ?_
    revert ih
    generalize kids n = ks
    intro ih
    clear hp
    induction ks generalizing st with
    | nil => exact .nil
    | cons k ks ih' =>
      rw [List.flatMap_cons, List.flatMap_cons, tops_append]
      refine pointwise_append ?_ (ih' _ (fun how pos c hc => ih how pos c (by simp [hc])))
      cases k with
      | child how pos' c =>
        have := ih how pos' c (by simp)
        rcases pos' with _ | ⟨a, b⟩
        · exact this none st (by simp)
        · simp only [kidPlaced, kidEv, around, tops, tops_append, List.append_nil]
          exact this (some (a, b)) ((a, b) :: st) (by simp)
      | push a b => exact .nil
      | panic => exact .nil

/-! ### Arbitrary visitors -/

section
variable {σ : Type} {E : Emitter (σ × List (Pos × Pos))}

/-- unless it panics, a computation leaves at most `k` more positions on the stack, and those below alone -/
def Grows {α : Type} (k : Nat) (m : M (σ × List (Pos × Pos)) α) : Prop :=
  ∀ s, (m s).2 ≠ .panic → ∃ L, (m s).1.2 = L ++ s.2 ∧ L.length ≤ k

variable (hpush : ∀ a b s, (E.push a b s).2 = (a, b) :: s.2) (hpop : ∀ s, (E.pop s).2 = s.2.tail)
  (hemit : ∀ m n s, (E.emit m n s).1.2 = s.2)

include hpush hpop in
theorem grows_child {pos : Option (Pos × Pos)} {k : Nat} {m : M (σ × List (Pos × Pos)) TR} (h : Grows k m) :
    Grows k (walkChild E pos m) := by
  rcases pos with _ | ⟨a, b⟩
  · exact h
  · intro s
    have h1 := h (E.push a b s)
    simp only [walkChild, withPos]
    rcases h3 : m (E.push a b s) with ⟨s1, r⟩
    rw [h3] at h1
    have key : r ≠ .panic → ∃ L, (E.pop s1).2 = L ++ s.2 ∧ L.length ≤ k := by
      intro hr
      obtain ⟨L, h2, h4⟩ := h1 hr
      rw [hpush] at h2
      rw [hpop]
      simp only at h2
      rw [h2]
      rcases L with _ | ⟨x, L⟩
      · exact ⟨[], rfl, Nat.zero_le _⟩
      · exact ⟨L ++ [(a, b)], by simp, by simpa using h4⟩
    cases r with
    | panic => exact fun h => absurd rfl h
    | ok a => exact key
    | err e => exact key

/-- how many positions may stay behind after the visit of these children -/
def growth (ks : List Kid) : Nat := extra ks + (ks.flatMap kidPre).countP AnyNode.pushesMore

include hpush hpop in
theorem grows_kids {only : Option Str} {ks : List Kid}
    (h : ∀ how pos c, .child how pos c ∈ ks → Grows ((preorder c).countP AnyNode.pushesMore) (visit E c)) :
    Grows (growth ks) (walkKids E only (visit E) ks) := by
  induction ks with
  | nil => exact fun s _ => ⟨[], rfl, Nat.zero_le _⟩
  | cons k ks ih =>
    have ih := ih fun how pos c hc => h how pos c (by simp [hc])
    cases k with
    | panic => exact fun s hs => absurd rfl hs
    | push a b =>
      intro s hs
      obtain ⟨L, h1, h2⟩ := ih (E.push a b s) hs
      rw [hpush] at h1
      refine ⟨L ++ [(a, b)], by simp only [walkKids]; rw [h1]; simp, ?_⟩
      simp only [growth, extra_push, List.flatMap_cons, kidPre, List.nil_append] at h2 ⊢
      simp only [List.length_append, List.length_singleton]
      omega
    | child how pos c =>
      intro s hs
      have h1 := grows_child hpush hpop (pos := pos) (h how pos c (by simp)) s
      have hg : growth (.child how pos c :: ks) = (preorder c).countP AnyNode.pushesMore + growth ks := by
        simp only [growth, extra_child, List.flatMap_cons, kidPre, List.countP_append]
        omega
      rw [hg]
      simp only [walkKids] at hs ⊢
      rcases h3 : walkChild E pos (visit E c) s with ⟨s1, r⟩
      rw [h3] at h1 hs
      simp only at h1 hs ⊢
      have stop : r ≠ .panic → ∃ L, s1.2 = L ++ s.2 ∧
          L.length ≤ (preorder c).countP AnyNode.pushesMore + growth ks := by
        intro hr
        obtain ⟨L, e, hl⟩ := h1 hr
        exact ⟨L, e, by omega⟩
      have goOn : r ≠ .panic → (walkKids E only (visit E) ks s1).2 ≠ .panic →
          ∃ L, (walkKids E only (visit E) ks s1).1.2 = L ++ s.2 ∧
            L.length ≤ (preorder c).countP AnyNode.pushesMore + growth ks := by
        intro hr hk
        obtain ⟨L, e, hl⟩ := h1 hr
        obtain ⟨L2, e2, hl2⟩ := ih s1 hk
        exact ⟨L2 ++ L, by rw [e2, e, List.append_assoc], by rw [List.length_append]; omega⟩
      rcases r with a | e | _
      · cases a with
        | continue_ => exact goOn (by simp) hs
        | skip => cases how <;> first | exact goOn (by simp) hs | exact stop (by simp)
      · simp only at hs ⊢
        split
        · exact stop (by simp)
        · rename_i hh
          rw [if_neg hh] at hs
          exact goOn (by simp) hs
      · exact absurd rfl hs

include hpush hpop hemit in
theorem grows_visit (n : AnyNode) : Grows ((preorder n).countP AnyNode.pushesMore) (visit E n) := by
  induction n using tree_induction with
  | h n ih =>
    have hk := grows_kids hpush hpop (only := n.onlyError) ih
    have hg : (preorder n).countP AnyNode.pushesMore = growth (kids n) := by
      rw [preorder_eq, List.countP_cons, growth, extra_kids]; omega
    rw [hg, visit_eq]
    intro s hs
    have h0 := hemit .enter n s
    simp only [walkNode] at hs ⊢
    rcases h1 : E.emit .enter n s with ⟨s1, r⟩
    rw [h1] at h0 hs
    simp only at h0
    have exit0 : ∃ L, (E.emit .exit n s1).1.2 = L ++ s.2 ∧ L.length ≤ growth (kids n) :=
      ⟨[], by rw [hemit, h0]; rfl, Nat.zero_le _⟩
    have here : ∃ L, s1.2 = L ++ s.2 ∧ L.length ≤ growth (kids n) := ⟨[], by rw [h0]; rfl, Nat.zero_le _⟩
    rcases r with a | e | _
    · cases a with
      | continue_ =>
        simp only at hs ⊢
        have h2 := hk s1
        rcases h3 : walkKids E n.onlyError (visit E) (kids n) s1 with ⟨s2, r⟩
        rw [h3] at h2 hs
        rw [h0] at h2
        rcases r with a | e | _
        · obtain ⟨L, e, hl⟩ := h2 (by simp)
          cases a with
          | exit => exact ⟨L, by rw [hemit, e], hl⟩
          | done => exact ⟨L, e, hl⟩
          | skip => exact ⟨L, e, hl⟩
        · exact h2 (by simp)
        · exact absurd rfl hs
      | skip =>
        simp only
        split
        · exact exit0
        · exact here
    · simp only
      split
      · exact exit0
      · exact here
    · exact absurd rfl hs

end

end Verif
