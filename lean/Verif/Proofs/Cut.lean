import Verif.Proofs.Parts
import Verif.Proofs.LexCut
import Verif.Props.Pile
/-
Programs that begin alike (C83).
-/
namespace Verif

theorem phrase_same {n : NT} (hg : good n = true) {a b s s' : List STok} {v v' : Val n} (da : Derives n a v)
    (db : Derives n b v') (e : a ++ s = b ++ s') (fs : Follow (bad n) s) (fs' : Follow (bad n) s') :
    a = b ∧ v = v' ∧ s = s' := by
  have h1 := comp (32 * a.length + rank n + 32 * b.length) n a v da hg (by omega) default s fs
  have h2 := comp (32 * a.length + rank n + 32 * b.length) n b v' db hg (by omega) default s' fs'
  rw [e, h2] at h1
  simp only [Option.some.injEq, Prod.mk.injEq, PS.mk.injEq] at h1
  obtain ⟨h1, -, h3⟩ := h1
  rw [h3] at e
  exact ⟨List.append_cancel_right e, h1.symm, h3.symm⟩

/-- what ends in a token that is not in `xs` lies before `xs` -/
theorem before_cut {a r k xs : List STok} {t : STok} (e : a ++ t :: r = k ++ xs) (ht : t ∉ xs) :
    ∃ k', k = a ++ t :: k' ∧ r = k' ++ xs := by
  induction a generalizing k with
  | nil =>
    cases k with
    | nil => simp at e; exact absurd (by rw [← e]; simp) ht
    | cons x k => simp at e; exact ⟨k, by simp [e.1], e.2⟩
  | cons x a ih =>
    cases k with
    | nil => exact absurd (by rw [← List.nil_append xs, ← e]; simp) ht
    | cons y k =>
      simp only [List.cons_append, List.cons.injEq] at e
      obtain ⟨k', rfl, e2⟩ := ih e.2
      exact ⟨k', by simp [e.1], e2⟩

theorem before_cut_last {a r k xs : List STok} (e : a ++ r = k ++ xs) {a0 : List STok} {t : STok} (ha : a = a0 ++ [t])
    (ht : t ∉ xs) : ∃ k', k = a ++ k' ∧ r = k' ++ xs := by
  subst ha
  rw [List.append_assoc] at e
  obtain ⟨k', rfl, e2⟩ := before_cut e ht
  exact ⟨k', by simp, e2⟩

/-- parameters end in a parenthesis -/
theorem Derives.params_last {w : List STok} {v : W NodeComponentParameters} (d : Derives .compParams w v) :
    ∃ a t, w = a ++ [t] ∧ t.tok = .closeParen := by
  cases d with
  | @compParams _ w1 w2 p ps s1 e1 s2 e2 h d1 d2 =>
    subst h
    exact ⟨⟨s1, .openParen, e1⟩ :: (w1 ++ w2), ⟨s2, .closeParen, e2⟩, by simp, rfl⟩

/-- neither a closing parenthesis nor an equals sign -/
def Blunt (xs : List STok) : Prop := ∀ t ∈ xs, t.tok ≠ .closeParen ∧ t.tok ≠ .equals

def ComponentPart.head (c : ComponentPart) : Bool × List Token × List Token := (c.isTransition, c.name, c.params)

def NodeTransitionDefinition.head (t : NodeTransitionDefinition) : W NodeComponentId × W NodeComponentParameters :=
  (t.name, t.parameters)

theorem Blunt.last {a r k xs : List STok} (hb : Blunt xs) {v : W NodeComponentParameters} (d : Derives .compParams a v)
    {p : List STok} (e : p ++ (a ++ r) = k ++ xs) : ∃ k', k = p ++ (a ++ k') ∧ r = k' ++ xs := by
  obtain ⟨a0, t, rfl, ht⟩ := d.params_last
  obtain ⟨k', rfl, e2⟩ := before_cut_last (a := p ++ (a0 ++ [t])) (r := r) (k := k) (xs := xs) (by simpa using e)
    (a0 := p ++ a0) (t := t) (by simp) (fun h => (hb t h).1 ht)
  exact ⟨k', by simp, e2⟩

/-- components that are not empty reach into the common part -/
theorem CompsAt.reach {C : List ComponentPart} {p w k xs : List STok} {cs : List (W NodeComponentDefinition)}
    (h : CompsAt C w cs) (hC : C ≠ []) (e : p ++ w = k ++ xs) (hb : Blunt xs) :
    ∃ k', k = p ++ k' ∧ w = k' ++ xs ∧ ∃ t k'', k' = t :: k'' ∧ (t.tok = .transition ∨ t.tok = .procedure) := by
  cases h with
  | nil => exact absurd rfl hC
  | @trans w1 w2 w3 w n ps y s e0 a b a' b' cs vs d1 d2 d3 hr =>
    obtain ⟨k', rfl, e2⟩ := hb.last d2 (p := p ++ ⟨s, .transition, e0⟩ :: w1) (r := w3 ++ w) (by simpa using e)
    exact ⟨⟨s, .transition, e0⟩ :: (w1 ++ (w2 ++ k')), by simp, by simp [e2], _, _, rfl, .inl rfl⟩
  | @proc w1 w2 w3 w n ps y s e0 a b a' b' cs vs d1 d2 d3 hr =>
    obtain ⟨k', rfl, e2⟩ := hb.last d2 (p := p ++ ⟨s, .procedure, e0⟩ :: w1) (r := w3 ++ w) (by simpa using e)
    exact ⟨⟨s, .procedure, e0⟩ :: (w1 ++ (w2 ++ k')), by simp, by simp [e2], _, _, rfl, .inr rfl⟩

theorem Follow.none {ts : List STok} : Follow [] ts := by
  intro t us _ h; cases h

theorem CompsAt.cut {C C' : List ComponentPart} {w w' k xs ys : List STok} {cs cs' : List (W NodeComponentDefinition)}
    (h : CompsAt C w cs) (h' : CompsAt C' w' cs') (e : w = k ++ xs) (e' : w' = k ++ ys) (hb : Blunt xs) :
    C.map (·.head) <+: C'.map (·.head) ∧
    (transitionsOf cs).map (·.head) <+: (transitionsOf cs').map (·.head) := by
  induction h generalizing C' w' k cs' with
  | nil => exact ⟨List.nil_prefix, List.nil_prefix⟩
  | @trans w1 w2 w3 w n ps y s e0 a b a' b' cs vs d1 d2 d3 hr ih =>
    obtain ⟨k', rfl, e2⟩ := hb.last d2 (p := ⟨s, .transition, e0⟩ :: w1) (r := w3 ++ w) (by simpa using e)
    cases h' with
    | nil => simp at e'
    | proc => simp at e'
    | @trans v1 v2 v3 v n' ps' y' s' e0' _ _ _ _ cs' vs' f1 f2 f3 hr' =>
      simp only [List.cons_append, List.append_assoc, List.cons.injEq] at e'
      obtain ⟨-, e'⟩ := e'
      obtain ⟨rfl, rfl, e'⟩ := phrase_same rfl f1 d1 e' Follow.none Follow.none
      obtain ⟨rfl, rfl, e'⟩ := phrase_same rfl f2 d2 e' Follow.none Follow.none
      have key : cs.map (·.head) <+: cs'.map (·.head) ∧
          (transitionsOf vs).map (·.head) <+: (transitionsOf vs').map (·.head) := by
        by_cases hc : cs = []
        · subst hc; cases hr; exact ⟨List.nil_prefix, List.nil_prefix⟩
        · obtain ⟨k2, rfl, e3, -⟩ := hr.reach hc e2 hb
          rw [List.append_assoc] at e'
          obtain ⟨-, -, e'⟩ := phrase_same rfl f3 d3 e' Follow.none Follow.none
          exact ih hr' e3 e'
      refine ⟨?_, ?_⟩
      · simp only [List.map_cons]
        exact List.cons_prefix_cons.2 ⟨rfl, key.1⟩
      · exact List.cons_prefix_cons.2 ⟨rfl, key.2⟩
  | @proc w1 w2 w3 w n ps y s e0 a b a' b' cs vs d1 d2 d3 hr ih =>
    obtain ⟨k', rfl, e2⟩ := hb.last d2 (p := ⟨s, .procedure, e0⟩ :: w1) (r := w3 ++ w) (by simpa using e)
    cases h' with
    | nil => simp at e'
    | trans => simp at e'
    | @proc v1 v2 v3 v n' ps' y' s' e0' _ _ _ _ cs' vs' f1 f2 f3 hr' =>
      simp only [List.cons_append, List.append_assoc, List.cons.injEq] at e'
      obtain ⟨-, e'⟩ := e'
      obtain ⟨rfl, rfl, e'⟩ := phrase_same rfl f1 d1 e' Follow.none Follow.none
      obtain ⟨rfl, rfl, e'⟩ := phrase_same rfl f2 d2 e' Follow.none Follow.none
      have key : cs.map (·.head) <+: cs'.map (·.head) ∧
          (transitionsOf vs).map (·.head) <+: (transitionsOf vs').map (·.head) := by
        by_cases hc : cs = []
        · subst hc; cases hr; exact ⟨List.nil_prefix, List.nil_prefix⟩
        · obtain ⟨k2, rfl, e3, -⟩ := hr.reach hc e2 hb
          rw [List.append_assoc] at e'
          obtain ⟨-, -, e'⟩ := phrase_same rfl f3 d3 e' Follow.none Follow.none
          exact ih hr' e3 e'
      refine ⟨?_, key.2⟩
      simp only [List.map_cons]
      exact List.cons_prefix_cons.2 ⟨rfl, key.1⟩

/-- the first token of the fields and components, if there is one -/
theorem FieldsAt.headed {F : List FieldPart} {w : List STok} {fs : List (W NodeContractField)} (h : FieldsAt F w fs)
    {C : List ComponentPart} {w' : List STok} {cs : List (W NodeComponentDefinition)} (h' : CompsAt C w' cs) :
    w ++ w' = [] ∨ ∃ t r, w ++ w' = t :: r ∧
      ((t.tok = .field ∧ F ≠ []) ∨ ((t.tok = .transition ∨ t.tok = .procedure) ∧ F = [] ∧ w = [])) := by
  cases h with
  | cons => exact .inr ⟨_, _, rfl, .inl ⟨rfl, by simp⟩⟩
  | nil =>
    cases h' with
    | nil => exact .inl rfl
    | trans => exact .inr ⟨_, _, rfl, .inr ⟨.inl rfl, rfl, rfl⟩⟩
    | proc => exact .inr ⟨_, _, rfl, .inr ⟨.inr rfl, rfl, rfl⟩⟩

theorem FieldsAt.follow {F : List FieldPart} {w : List STok} {fs : List (W NodeContractField)} (h : FieldsAt F w fs)
    {C : List ComponentPart} {w' : List STok} {cs : List (W NodeComponentDefinition)} (h' : CompsAt C w' cs)
    {L : List Token} (hL : Token.field ∉ L ∧ Token.transition ∉ L ∧ Token.procedure ∉ L) : Follow L (w ++ w') := by
  rcases h.headed h' with e | ⟨t, r, e, ht⟩
  · rw [e]; exact Follow.nil
  · rw [e]
    refine Follow.cons ?_
    rcases ht with ⟨ht, -⟩ | ⟨ht | ht, -⟩ <;> rw [ht]
    · exact hL.1
    · exact hL.2.1
    · exact hL.2.2

/-- fields and components that are not empty reach into the common part -/
theorem FieldsAt.reach {F : List FieldPart} {p w k xs : List STok} {fs : List (W NodeContractField)}
    (h : FieldsAt F w fs) {C : List ComponentPart} {w' : List STok} {cs : List (W NodeComponentDefinition)}
    (h' : CompsAt C w' cs) (hne : F ≠ [] ∨ C ≠ []) (e : p ++ (w ++ w') = k ++ xs) (hb : Blunt xs) :
    ∃ t k', k = p ++ t :: k' ∧ w ++ w' = t :: (k' ++ xs) := by
  cases h with
  | nil =>
    obtain ⟨k', rfl, e2, t, k'', rfl, -⟩ := h'.reach (by simpa using hne) e hb
    exact ⟨t, k'', rfl, e2⟩
  | @cons w1 w2 w t x s e0 s' e0' a b fs vs d1 d2 hr =>
    obtain ⟨k', rfl, e2⟩ := before_cut (a := p ++ ⟨s, .field, e0⟩ :: w1) (t := ⟨s', .equals, e0'⟩)
      (r := w2 ++ w ++ w') (k := k) (xs := xs) (by simpa using e) (fun h => (hb _ h).2 rfl)
    exact ⟨⟨s, .field, e0⟩, w1 ++ ⟨s', .equals, e0'⟩ :: k', by simp, by simp at e2 ⊢; exact e2⟩

theorem badExpr_parts : Token.field ∉ bad .fullExpr ∧ Token.transition ∉ bad .fullExpr ∧
    Token.procedure ∉ bad .fullExpr := by decide

theorem FieldsAt.cut {F F' : List FieldPart} {C C' : List ComponentPart} {w w1 w' w1' k xs ys : List STok}
    {fs fs' : List (W NodeContractField)} {cs cs' : List (W NodeComponentDefinition)}
    (h : FieldsAt F w fs) (hc : CompsAt C w1 cs) (h' : FieldsAt F' w' fs') (hc' : CompsAt C' w1' cs')
    (e : w ++ w1 = k ++ xs) (e' : w' ++ w1' = k ++ ys) (hb : Blunt xs) :
    F.map (·.declared) <+: F'.map (·.declared) ∧ (C ≠ [] → F = F') ∧
    C.map (·.head) <+: C'.map (·.head) ∧
    fieldTypedOf fs <+: fieldTypedOf fs' ∧ (C ≠ [] → fieldTypedOf fs = fieldTypedOf fs') ∧
    (transitionsOf cs).map (·.head) <+: (transitionsOf cs').map (·.head) := by
  induction h generalizing F' w' k fs' with
  | nil =>
    by_cases hC : C = []
    · subst hC; cases hc
      exact ⟨List.nil_prefix, fun h => absurd rfl h, List.nil_prefix, List.nil_prefix, fun h => absurd rfl h,
        List.nil_prefix⟩
    · obtain ⟨k', hk, e2, t, k'', rfl, ht⟩ := hc.reach hC (p := []) e hb
      obtain rfl : k = t :: k'' := hk
      cases h' with
      | cons =>
        simp only [List.cons_append, List.cons.injEq] at e'
        rw [← e'.1] at ht
        simp at ht
      | nil =>
        have := hc.cut hc' e e' hb
        exact ⟨List.nil_prefix, fun _ => rfl, this.1, List.nil_prefix, fun _ => rfl, this.2⟩
  | @cons v1 v2 w t x s e0 s' e0' a b fs vs d1 d2 hr ih =>
    obtain ⟨k', rfl, e2⟩ := before_cut (a := ⟨s, .field, e0⟩ :: v1) (t := ⟨s', .equals, e0'⟩)
      (r := v2 ++ (w ++ w1)) (k := k) (xs := xs) (by simpa using e) (fun h => (hb _ h).2 rfl)
    cases h' with
    | nil =>
      simp only [List.nil_append, List.cons_append] at e'
      cases hc' with
      | nil => simp at e'
      | trans => simp at e'
      | proc => simp at e'
    | @cons u1 u2 u t' x' r0 r1 r0' r1' _ _ fs' vs' f1 f2 hr' =>
      simp only [List.cons_append, List.append_assoc, List.cons.injEq] at e'
      obtain ⟨-, e'⟩ := e'
      obtain ⟨rfl, rfl, e'⟩ := phrase_same rfl f1 d1 e' (Follow.tok (by decide)) (Follow.tok (by decide))
      simp only [List.cons.injEq] at e'
      obtain ⟨-, e'⟩ := e'
      by_cases hne : fs ≠ [] ∨ C ≠ []
      · obtain ⟨t1, k2, rfl, e3⟩ := hr.reach hc hne e2 hb
        rw [List.append_assoc] at e'
        have fw : Follow (bad .fullExpr) (t1 :: (k2 ++ ys)) := by
          have := hr.follow hc badExpr_parts
          rw [e3] at this
          exact Follow.cons (this _ _ rfl)
        obtain ⟨rfl, rfl, e'⟩ := phrase_same rfl f2 d2 e' (hr'.follow hc' badExpr_parts) fw
        obtain ⟨i1, i2, i3, i4, i5, i6⟩ := ih hr' (k := t1 :: k2) (by simpa using e3) (by simpa using e')
        refine ⟨?_, fun h => ?_, i3, ?_, fun h => ?_, i6⟩
        · exact List.cons_prefix_cons.2 ⟨rfl, i1⟩
        · rw [i2 h]
        · exact List.cons_prefix_cons.2 ⟨rfl, i4⟩
        · have := i5 h
          simp only [fieldTypedOf, List.map_cons] at this ⊢
          rw [this]
      · have h1 : fs = [] := by
          cases fs with
          | nil => rfl
          | cons => exact absurd (.inl (by simp)) hne
        have h2 : C = [] := by
          cases C with
          | nil => rfl
          | cons => exact absurd (.inr (by simp)) hne
        subst h1 h2
        cases hr
        cases hc
        refine ⟨?_, fun h => absurd rfl h, List.nil_prefix, ?_, fun h => absurd rfl h, List.nil_prefix⟩
        · exact List.cons_prefix_cons.2 ⟨rfl, List.nil_prefix⟩
        · exact List.cons_prefix_cons.2 ⟨rfl, List.nil_prefix⟩

/-! ### The parts before the fields -/

theorem follow_opt {n : NT} {w K : List STok} {v : Val (.opt n)} (d : Derives (.opt n) w v) {L : List Token}
    (hd : ∀ k ∈ heads n, k ∉ L) (hK : Follow L K) : Follow L (w ++ K) := Follow.app' d hd hK

/-- what two outlines with positions have in common when they begin alike -/
structure BeginAt (p p' : NodeProgram) : Prop where
  name : p.contractDefinition.node.contractName = p'.contractDefinition.node.contractName
  params : p.contractDefinition.node.parameters = p'.contractDefinition.node.parameters
  fields : fieldTypedOf p.contractDefinition.node.fields <+: fieldTypedOf p'.contractDefinition.node.fields
  transitions : (transitionsOf p.contractDefinition.node.components).map (·.head) <+:
    (transitionsOf p'.contractDefinition.node.components).map (·.head)
  order : transitionsOf p.contractDefinition.node.components ≠ [] →
    fieldTypedOf p.contractDefinition.node.fields = fieldTypedOf p'.contractDefinition.node.fields

theorem CompsAt.empty {w : List STok} {cs : List (W NodeComponentDefinition)} (h : CompsAt [] w cs) : cs = [] := by
  cases h; rfl

theorem OutlineAt.cut {o o' : Outline} {w w' k xs ys : List STok} {p p' : NodeProgram} (h : OutlineAt o w p)
    (h' : OutlineAt o' w' p') (e : w = k ++ xs) (e' : w' = k ++ ys) (hb : Blunt xs) : o.Begins o' ∧ BeginAt p p' := by
  cases h with
  | @mk w1 w2 w3 w4 w5 w6 w7 w8 s e0 s' e0' ver imps lib n ps con fs cs a b F C d1 d2 d3 d4 d5 d6 hF hC =>
    cases h' with
    | @mk v1 v2 v3 v4 v5 v6 v7 v8 r f r' f' ver' imps' lib' n' ps' con' fs' cs' _ _ F' C' g1 g2 g3 g4 g5 g6 hF' hC' =>
      obtain ⟨k', rfl, e2⟩ := hb.last d5 (k := k)
        (p := ⟨s, .scillaVersion, e0⟩ :: (w1 ++ (w2 ++ (w3 ++ ⟨s', .contract, e0'⟩ :: w4))))
        (r := w6 ++ (w7 ++ w8)) (by simpa using e)
      simp only [List.cons_append, List.append_assoc, List.cons.injEq] at e'
      obtain ⟨-, e'⟩ := e'
      obtain ⟨rfl, rfl, e'⟩ := phrase_same rfl g1 d1 e' Follow.none Follow.none
      have fl : ∀ {x} {v : Val (.opt .libraryDef)} {K : List STok} {a b : Pos}, Derives (.opt .libraryDef) x v →
          Follow (bad (.opt .importDecls)) (x ++ ⟨a, .contract, b⟩ :: K) := fun dx =>
        follow_opt dx (by decide) (Follow.tok (by decide))
      obtain ⟨rfl, rfl, e'⟩ := phrase_same rfl g2 d2 e' (fl g3) (fl d3)
      obtain ⟨rfl, rfl, e'⟩ := phrase_same rfl g3 d3 e' (Follow.tok (by decide)) (Follow.tok (by decide))
      simp only [List.cons.injEq] at e'
      obtain ⟨-, e'⟩ := e'
      obtain ⟨rfl, rfl, e'⟩ := phrase_same rfl g4 d4 e' Follow.none Follow.none
      obtain ⟨rfl, rfl, e'⟩ := phrase_same rfl g5 d5 e' Follow.none Follow.none
      by_cases hne : F ≠ [] ∨ C ≠ []
      · obtain ⟨t1, k2, rfl, e3⟩ := hF.reach hC hne e2 hb
        have fw : Follow (bad (.opt .withConstraint)) (t1 :: (k2 ++ ys)) := by
          have := hF.follow hC (L := bad (.opt .withConstraint)) (by decide)
          rw [e3] at this
          exact Follow.cons (this _ _ rfl)
        rw [List.append_assoc] at e'
        obtain ⟨rfl, rfl, e'⟩ := phrase_same rfl g6 d6 e' (hF'.follow hC' (by decide)) fw
        obtain ⟨i1, i2, i3, i4, i5, i6⟩ := hF.cut hC hF' hC' (k := t1 :: k2) (by simpa using e3) (by simpa using e') hb
        refine ⟨⟨rfl, rfl, rfl, rfl, rfl, i1, i3, fun h => ⟨rfl, i2 h⟩⟩, ⟨rfl, rfl, i4, i6, fun h => i5 ?_⟩⟩
        rintro rfl
        rw [hC.empty] at h
        exact h rfl
      · have h1 : F = [] := by
          cases F with
          | nil => rfl
          | cons => exact absurd (.inl (by simp)) hne
        have h2 : C = [] := by
          cases C with
          | nil => rfl
          | cons => exact absurd (.inr (by simp)) hne
        subst h1 h2
        cases hF
        cases hC
        exact ⟨⟨rfl, rfl, rfl, rfl, rfl, List.nil_prefix, List.nil_prefix, fun h => absurd rfl h⟩,
          ⟨rfl, rfl, List.nil_prefix, List.nil_prefix, fun h => absurd rfl h⟩⟩

/-! ### Emission -/

namespace Pile

theorem bind_fine {α β : Type} {m : Step α} {f : α → Step β} {p q : List Thing} {b : β}
    (h : (m >>= f) p = .fine b q) : ∃ a r, m p = .fine a r ∧ f a r = .fine b q := by
  change Step.bind m f p = _ at h
  unfold Step.bind at h
  cases hm : m p with
  | fine a r => rw [hm] at h; exact ⟨a, r, rfl, h⟩
  | error w x r => rw [hm] at h; cases h
  | panic => rw [hm] at h; cases h

theorem fine_bind {α β : Type} {m : Step α} {f : α → Step β} {p r : List Thing} {a : α} (h : m p = .fine a r) :
    (m >>= f) p = f a r := by
  change Step.bind m f p = _
  unfold Step.bind
  rw [h]

theorem declared_prefix : ∀ (ns ms : List NodeTypedIdentifier) (p q : List Thing) (xs : List Field),
    declared (ns ++ ms) p = .fine xs q → ∃ ys r, declared ns p = .fine ys r ∧ ys <+: xs
  | [], _, p, _, _, _ => ⟨[], p, rfl, List.nil_prefix⟩
  | n :: ns, ms, p, q, xs, h => by
    simp only [List.cons_append, declared] at h ⊢
    obtain ⟨u, r1, h1, h⟩ := bind_fine h
    obtain ⟨x, r2, h2, h⟩ := bind_fine h
    obtain ⟨zs, r3, h3, h⟩ := bind_fine h
    obtain ⟨ys, r, h4, h5⟩ := declared_prefix ns ms r2 r3 zs h3
    refine ⟨x :: ys, r, ?_, ?_⟩
    · rw [fine_bind h1, fine_bind h2, fine_bind h4]; rfl
    · cases h
      exact List.cons_prefix_cons.2 ⟨rfl, h5⟩

theorem transition_head {t t' : NodeTransitionDefinition} (h : t.head = t'.head) : transition t = transition t' := by
  simp only [NodeTransitionDefinition.head, Prod.mk.injEq] at h
  simp only [transition, h.1, h.2]

theorem transitions_prefix : ∀ (ts us : List NodeTransitionDefinition) (p q : List Thing) (xs : List Transition),
    ts.map (·.head) <+: us.map (·.head) → transitions us p = .fine xs q →
      ∃ ys r, transitions ts p = .fine ys r ∧ ys <+: xs ∧ (ts = [] → ys = [])
  | [], _, p, _, _, _, _ => ⟨[], p, rfl, List.nil_prefix, fun _ => rfl⟩
  | _ :: _, [], _, _, _, hp, _ => by simp at hp
  | t :: ts, u :: us, p, q, xs, hp, h => by
    simp only [List.map_cons, List.cons_prefix_cons] at hp
    simp only [transitions] at h ⊢
    obtain ⟨x, r2, h2, h⟩ := bind_fine h
    obtain ⟨zs, r3, h3, h⟩ := bind_fine h
    obtain ⟨ys, r, h4, h5, -⟩ := transitions_prefix ts us r2 r3 zs hp.2 h3
    refine ⟨x :: ys, r, ?_, ?_, fun h => by cases h⟩
    · rw [transition_head hp.1, fine_bind h2, fine_bind h4]; rfl
    · cases h
      exact List.cons_prefix_cons.2 ⟨rfl, h5⟩

theorem contract_begins {p p' : NodeProgram} (h : BeginAt p p') {a q : List Thing} {c : Contract}
    (hc : contract p' a = .fine c q) : ∃ c' r, contract p a = .fine c' r ∧ c'.Begins c := by
  obtain ⟨h1, h2, h3, h4, h5⟩ := h
  simp only [contract] at hc ⊢
  obtain ⟨u, r1, k1, hc⟩ := bind_fine hc
  obtain ⟨ps, r2, k2, hc⟩ := bind_fine hc
  obtain ⟨u', r3, k3, hc⟩ := bind_fine hc
  obtain ⟨fs, r4, k4, hc⟩ := bind_fine hc
  obtain ⟨ts, r5, k5, hc⟩ := bind_fine hc
  cases hc
  rw [h1, h2, fine_bind k1, fine_bind k2, fine_bind k3]
  by_cases ht : transitionsOf p.contractDefinition.node.components = []
  · obtain ⟨ms, hms⟩ := h3
    rw [← hms] at k4
    obtain ⟨ys, r, k6, k7⟩ := declared_prefix _ _ _ _ _ k4
    rw [fine_bind k6, ht]
    exact ⟨_, _, rfl, rfl, rfl, k7, List.nil_prefix, fun h => absurd rfl h⟩
  · rw [h5 ht, fine_bind k4]
    obtain ⟨ys, r, k6, k7, -⟩ := transitions_prefix _ _ _ _ _ h4 k5
    rw [fine_bind k6]
    exact ⟨_, _, rfl, rfl, rfl, List.prefix_refl _, k7, fun _ => rfl⟩

end Pile

theorem emit_begins (dbg : StackObj → Str) {p p' : NodeProgram} (h : BeginAt p p') {c : Contract}
    (hc : emitProgram dbg p' = .ok c) : ∃ c', emitProgram dbg p = .ok c' ∧ c'.Begins c := by
  have k := C64_tree dbg p'
  cases hp : Pile.contract p' [] with
  | panic => rw [hp] at k; simp only [hc] at k; cases k
  | error w x q =>
    rw [hp] at k
    cases x with
    | none => simp only [hc] at k; cases k
    | some x => obtain ⟨o, -, k⟩ := k; rw [hc] at k; cases k
  | fine c1 q =>
    rw [hp] at k
    simp only [hc] at k
    cases k
    obtain ⟨c', r, h1, h2⟩ := Pile.contract_begins h hp
    have k := C64_tree dbg p
    rw [h1] at k
    exact ⟨c', k, h2⟩

/-! ### The last token -/

/-- the last token is an equals sign -/
def endsEq : List STok → Bool
  | [] => false
  | t :: w => if w.isEmpty then t.tok == .equals else endsEq w

theorem endsEq_append (a b : List STok) : endsEq (a ++ b) = if b.isEmpty then endsEq a else endsEq b := by
  induction a with
  | nil => cases b <;> simp [endsEq]
  | cons t a ih =>
    simp only [List.cons_append, endsEq, ih]
    cases b <;> cases a <;> simp

theorem endsEq_cons (t : STok) (w : List STok) : endsEq (t :: w) = if w.isEmpty then t.tok == .equals else endsEq w := rfl

theorem Derives.endsEq {n : NT} {w : List STok} {v : Val n} (d : Derives n w v) : endsEq w = false := by
  induction d
  all_goals simp_all [endsEq_append, endsEq_cons, Verif.endsEq]
  all_goals exact Derives.ne_nil (by assumption) rfl

end Verif
