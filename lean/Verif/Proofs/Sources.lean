import Verif.Spec.Sources
import Verif.Spec.Builds
/-
The actions of the grammar file invent nothing: induction over the grammar file's derivations, for actions of a certain
form; that all actions have this form is checked.
-/
namespace Verif

theorem FromTokens.mono {w w' : List STok} (hw : ∀ t ∈ w, t ∈ w') {v : RV} (h : FromTokens w v) : FromTokens w' v := by
  induction h with
  | text h => exact .text (hw _ h)
  | empty => exact .empty
  | vec _ ih => exact .vec ih
  | located _ h1 h2 ih => exact .located ih (hw _ h1) (hw _ h2)
  | node hp _ ih => exact .node hp ih

/-! ### Expressions -/

/-- a name of a mark -/
def markName (x : Str) : Bool := x == str! "start" || x == str! "end"

/-- what may be bound to a name -/
def OkFor (w : List STok) (x : Str) (v : RV) : Prop :=
  if x = str! "start" then ∃ t ∈ w, v = .pos t.start
  else if x = str! "end" then ∃ t ∈ w, v = .pos t.stop
  else FromTokens w v

theorem OkFor.plain {w : List STok} {x : Str} {v : RV} (hx : markName x = false) : OkFor w x v ↔ FromTokens w v := by
  simp only [markName, Bool.or_eq_false_iff, beq_eq_false_iff_ne, ne_eq] at hx
  rw [OkFor, if_neg hx.1, if_neg hx.2]

def GoodScope (w : List STok) (ρ : Scope) : Prop := ∀ b ∈ ρ, OkFor w b.1 b.2

theorem GoodScope.get {w : List STok} {ρ : Scope} (h : GoodScope w ρ) {x : Str} {v : RV} (hv : ρ.get x = some v) : OkFor w x v := by
  induction ρ with
  | nil => cases hv
  | cons b ρ ih =>
    obtain ⟨y, u⟩ := b
    rw [Scope.get] at hv
    split at hv
    · rename_i e
      cases hv
      subst e
      exact h (_, _) (by simp)
    · exact ih (fun b hb => h b (by simp [hb])) hv

theorem GoodScope.set {w : List STok} {ρ : Scope} (h : GoodScope w ρ) {x : Str} {v : RV} (hv : OkFor w x v) : GoodScope w (ρ.set x v) := by
  induction ρ with
  | nil => exact h
  | cons b ρ ih =>
    obtain ⟨y, u⟩ := b
    have ih := ih fun b hb => h b (by simp [hb])
    rw [Scope.set]
    split
    · rename_i e
      subst e
      intro b hb
      rcases List.mem_cons.1 hb with rfl | hb
      · exact hv
      · exact h b (by simp [hb])
    · intro b hb
      rcases List.mem_cons.1 hb with rfl | hb
      · exact h (y, u) (by simp)
      · exact ih b hb

theorem GoodScope.cons {w : List STok} {ρ : Scope} (h : GoodScope w ρ) {x : Str} {v : RV} (hv : OkFor w x v) : GoodScope w ((x, v) :: ρ) := by
  intro b hb
  rcases List.mem_cons.1 hb with rfl | hb
  · exact hv
  · exact h b hb

theorem GoodScope.tail {w : List STok} {ρ : Scope} (h : GoodScope w ρ) : GoodScope w ρ.tail := fun b hb => h b (List.mem_of_mem_tail hb)

mutual
/-- the form of the expressions: `WithMetaData` only with `start` and `end`, and these only there; the texts are in the list `ts` -/
def Ex.ok (ts : List Str) : Ex → Bool
  | .var x => !markName x
  | .text s => ts.contains s
  | .node p fs es =>
    if p = str! "WithMetaData" then
      match es with
      | [e, .var a, .var b] => e.ok ts && fs == [str! "node", str! "start", str! "end"] && a == str! "start" && b == str! "end"
      | _ => false
    else Ex.oks ts es
  | .vec es => Ex.oks ts es
  | .field e f => e.ok ts && !markName f
  | .orElse e d => e.ok ts && d.ok ts
  | .block ss e => St.oks ts ss && e.ok ts
def Ex.oks (ts : List Str) : List Ex → Bool
  | [] => true
  | e :: es => e.ok ts && Ex.oks ts es
def St.ok (ts : List Str) : St → Bool
  | .let_ x e => !markName x && e.ok ts
  | .push x path e => !markName x && path.all (fun f => !markName f) && e.ok ts
  | .for_ y e s => !markName y && e.ok ts && s.ok ts
  | .ifSome y e s => !markName y && e.ok ts && s.ok ts
def St.oks (ts : List Str) : List St → Bool
  | [] => true
  | s :: ss => s.ok ts && St.oks ts ss
end

theorem RV.get_mem {f : Str} {fs : List Str} {vs : List RV} {v : RV} (h : RV.get f fs vs = Option.some v) : v ∈ vs := by
  induction fs generalizing vs with
  | nil => simp [RV.get] at h
  | cons g fs ih =>
    cases vs with
    | nil => simp [RV.get] at h
    | cons u vs =>
      rw [RV.get] at h
      split at h
      · cases h; simp
      · exact List.mem_cons_of_mem _ (ih h)

theorem RV.mem_set {f : Str} {v' : RV} {fs : List Str} {vs : List RV} {v : RV} (h : v ∈ RV.set f v' fs vs) : v = v' ∨ v ∈ vs := by
  induction fs generalizing vs with
  | nil => simp only [RV.set] at h; exact .inr h
  | cons g fs ih =>
    cases vs with
    | nil => simp [RV.set] at h
    | cons u vs =>
      rw [RV.set] at h
      split at h
      · rcases List.mem_cons.1 h with rfl | h
        · exact .inl rfl
        · exact .inr (by simp [h])
      · rcases List.mem_cons.1 h with rfl | h
        · exact .inr (by simp)
        · rcases ih h with e | e
          · exact .inl e
          · exact .inr (by simp [e])

/-- the field of a good structure -/
theorem FromTokens.get {w : List STok} {p f : Str} {fs : List Str} {vs : List RV} {v : RV} (h : FromTokens w (.node p fs vs))
    (hf : markName f = false) (hg : RV.get f fs vs = some v) : FromTokens w v := by
  simp only [markName, Bool.or_eq_false_iff, beq_eq_false_iff_ne, ne_eq] at hf
  cases h with
  | located h1 h2 h3 =>
    simp only [RV.get] at hg
    split at hg
    · cases hg; exact h1
    · rw [if_neg hf.1, if_neg hf.2] at hg; cases hg
  | node hp h => exact h v (RV.get_mem hg)

theorem FromTokens.pushAt {w : List STok} {x : RV} (hx : FromTokens w x) : ∀ {path : List Str} {u u' : RV}, FromTokens w u →
    (path.all fun f => !markName f) = true → RV.pushAt x path u = some u' → FromTokens w u' := by
  intro path
  induction path with
  | nil =>
    intro u u' hu _ h
    cases hu with
    | vec hl =>
      simp only [RV.pushAt, Option.some.injEq] at h
      subst h
      refine .vec fun v hv => ?_
      rcases List.mem_append.1 hv with hv | hv
      · exact hl v hv
      · simp at hv; subst hv; exact hx
    | _ => simp [RV.pushAt] at h
  | cons f path ih =>
    intro u u' hu hp h
    simp only [List.all_cons, Bool.and_eq_true, Bool.not_eq_true'] at hp
    cases u with
    | node p fs vs =>
      rw [RV.pushAt] at h
      split at h
      · rename_i v hg
        split at h
        · rename_i v' hv'
          cases h
          have h1 := ih (hu.get hp.1 hg) (by simpa using hp.2) hv'
          have hf := hp.1
          simp only [markName, Bool.or_eq_false_iff, beq_eq_false_iff_ne, ne_eq] at hf
          cases hu with
          | located h2 h3 h4 =>
            simp only [RV.set]
            split
            · exact .located h1 h3 h4
            · rw [if_neg hf.1, if_neg hf.2]; exact .located h2 h3 h4
          | node hn hl =>
            refine .node hn fun z hz => ?_
            rcases RV.mem_set hz with rfl | hz
            · exact h1
            · exact hl z hz
        · cases h
      · cases h
    | _ => simp [RV.pushAt] at h

theorem FromTokens.option {w : List STok} {v u : RV} (h : FromTokens w v) (hv : v.option = some (some u)) : FromTokens w u := by
  cases h with
  | located h1 h2 h3 => simp [RV.option] at hv
  | @node p fs vs hn hl =>
    simp only [RV.option] at hv
    split at hv
    · cases hv
    split at hv
    · split at hv
      · cases hv; exact hl _ (by simp)
      · cases hv
    · cases hv
  | _ => simp [RV.option] at hv

section
variable {w : List STok} {ts : List Str} (hts : ∀ s ∈ ts, FromTokens w (.str s))
include hts

mutual
theorem Ex.good : (e : Ex) → e.ok ts = true → ∀ {ρ v}, GoodScope w ρ → e.eval ρ = some v → FromTokens w v
  | .var x, ho, ρ, v, hρ, h => by
    simp only [Ex.ok, Bool.not_eq_true'] at ho
    exact (OkFor.plain ho).mp (hρ.get h)
  | .text s, ho, ρ, v, hρ, h => by
    simp only [Ex.eval, Option.some.injEq] at h
    subst h
    exact hts s (by simpa [Ex.ok] using ho)
  | .node p fs es, ho, ρ, v, hρ, h => by
    rw [Ex.eval] at h
    split at h
    · rename_i vs hvs
      cases h
      rw [Ex.ok.eq_def] at ho
      dsimp only at ho
      split at ho
      · rename_i hp
        subst hp
        split at ho
        · rename_i e a b
          simp only [Bool.and_eq_true, beq_iff_eq] at ho
          obtain ⟨⟨⟨h1, rfl⟩, rfl⟩, rfl⟩ := ho
          simp only [Ex.evals, Ex.eval] at hvs
          split at hvs
          · rename_i u hu
            split at hvs
            · rename_i us hus
              cases hvs
              split at hus
              · rename_i a ha
                split at hus
                · rename_i bs hbs
                  cases hus
                  split at hbs
                  · rename_i b hb
                    cases hbs
                    have h2 := hρ.get ha
                    have h3 := hρ.get hb
                    simp only [OkFor, if_true] at h2
                    rw [OkFor, if_neg (by decide), if_pos rfl] at h3
                    obtain ⟨t, ht, rfl⟩ := h2
                    obtain ⟨t', ht', rfl⟩ := h3
                    exact .located (Ex.good e h1 hρ hu) ht ht'
                  · cases hbs
                · cases hus
              · cases hus
            · cases hvs
          · cases hvs
        · cases ho
      · rename_i hp
        exact .node hp (Ex.goods es ho hρ hvs)
    · cases h
  | .vec es, ho, ρ, v, hρ, h => by
    rw [Ex.eval] at h
    split at h
    · rename_i vs hvs
      cases h
      exact .vec (Ex.goods es (by simpa [Ex.ok] using ho) hρ hvs)
    · cases h
  | .field e f, ho, ρ, v, hρ, h => by
    simp only [Ex.ok, Bool.and_eq_true, Bool.not_eq_true'] at ho
    rw [Ex.eval] at h
    split at h
    · rename_i p fs vs hn
      exact (Ex.good e ho.1 hρ hn).get ho.2 h
    · cases h
  | .orElse e d, ho, ρ, v, hρ, h => by
    simp only [Ex.ok, Bool.and_eq_true] at ho
    rw [Ex.eval] at h
    split at h
    · rename_i u hu
      split at h
      · rename_i x hx
        cases h
        exact (Ex.good e ho.1 hρ hu).option hx
      · exact Ex.good d ho.2 hρ h
      · cases h
    · cases h
  | .block ss e, ho, ρ, v, hρ, h => by
    simp only [Ex.ok, Bool.and_eq_true] at ho
    rw [Ex.eval] at h
    split at h
    · rename_i ρ' hρ'
      exact Ex.good e ho.2 (St.goods ss ho.1 hρ hρ') h
    · cases h
theorem Ex.goods : (es : List Ex) → Ex.oks ts es = true → ∀ {ρ vs}, GoodScope w ρ → Ex.evals ρ es = some vs →
    ∀ v ∈ vs, FromTokens w v
  | [], _, ρ, vs, _, h => by
    simp only [Ex.evals, Option.some.injEq] at h
    subst h; simp
  | e :: es, ho, ρ, vs, hρ, h => by
    simp only [Ex.oks, Bool.and_eq_true] at ho
    rw [Ex.evals] at h
    split at h
    · rename_i v hv
      split at h
      · rename_i us hus
        cases h
        intro x hx
        rcases List.mem_cons.1 hx with rfl | hx
        · exact Ex.good e ho.1 hρ hv
        · exact Ex.goods es ho.2 hρ hus x hx
      · cases h
    · cases h
theorem St.good : (s : St) → s.ok ts = true → ∀ {ρ ρ'}, GoodScope w ρ → s.exec ρ = some ρ' → GoodScope w ρ'
  | .let_ x e, ho, ρ, ρ', hρ, h => by
    simp only [St.ok, Bool.and_eq_true, Bool.not_eq_true'] at ho
    rw [St.exec] at h
    split at h
    · rename_i v hv
      cases h
      exact hρ.cons ((OkFor.plain ho.1).mpr (Ex.good e ho.2 hρ hv))
    · cases h
  | .push x path e, ho, ρ, ρ', hρ, h => by
    simp only [St.ok, Bool.and_eq_true, Bool.not_eq_true'] at ho
    rw [St.exec] at h
    split at h
    · rename_i v hv
      split at h
      · rename_i u hu
        split at h
        · rename_i u' hu'
          cases h
          exact hρ.set ((OkFor.plain ho.1.1).mpr ((Ex.good e ho.2 hρ hv).pushAt ((OkFor.plain ho.1.1).mp (hρ.get hu)) ho.1.2 hu'))
        · cases h
      · cases h
    · cases h
  | .for_ y e s, ho, ρ, ρ', hρ, h => by
    simp only [St.ok, Bool.and_eq_true, Bool.not_eq_true'] at ho
    rw [St.exec] at h
    split at h
    · rename_i l hl
      have hg : ∀ v ∈ l, FromTokens w v := by
        have hg := Ex.good e ho.1.2 hρ hl
        cases hg; assumption
      clear hl
      induction l generalizing ρ with
      | nil =>
        simp only [List.foldlM_nil, Option.pure_def, Option.some.injEq] at h
        subst h; exact hρ
      | cons v l ih =>
        simp only [List.foldlM_cons, Option.bind_eq_bind] at h
        obtain ⟨ρ1, h1, h2⟩ := Option.bind_eq_some_iff.1 h
        obtain ⟨ρ2, h3, rfl⟩ := Option.map_eq_some_iff.1 h1
        refine ih _ ?_ h2 (fun v hv => hg v (by simp [hv]))
        exact (St.good s ho.2 (hρ.cons ((OkFor.plain ho.1.1).mpr (hg v (by simp)))) h3).tail
    · cases h
  | .ifSome y e s, ho, ρ, ρ', hρ, h => by
    simp only [St.ok, Bool.and_eq_true, Bool.not_eq_true'] at ho
    rw [St.exec] at h
    split at h
    · rename_i v hv
      split at h
      · rename_i u hu
        obtain ⟨ρ2, h3, rfl⟩ := Option.map_eq_some_iff.1 h
        exact (St.good s ho.2 (hρ.cons ((OkFor.plain ho.1.1).mpr ((Ex.good e ho.1.2 hρ hv).option hu))) h3).tail
      · cases h; exact hρ
      · cases h
    · cases h
theorem St.goods : (ss : List St) → St.oks ts ss = true → ∀ {ρ ρ'}, GoodScope w ρ → St.execs ρ ss = some ρ' → GoodScope w ρ'
  | [], _, ρ, ρ', hρ, h => by
    simp only [St.execs, Option.some.injEq] at h
    subst h; exact hρ
  | s :: ss, ho, ρ, ρ', hρ, h => by
    simp only [St.oks, Bool.and_eq_true] at ho
    rw [St.execs] at h
    split at h
    · rename_i ρ1 h1
      exact St.goods ss ho.2 (St.good s ho.1 hρ h1) h
    · cases h
end
end

/-! ### Productions -/

/-- symbols that are never read from nothing -/
def FSym.solid : FSym → Bool
  | .tok _ => true
  | .non _ => true
  | .plus _ => true
  | _ => false

/-- the texts that an action may write out -/
def allowedTexts (rhs : List FSym) : List Str :=
  [] :: ((if rhs.contains (.tok .contract) then [str! "contract"] else []) ++ if rhs.contains (.tok .library) then [str! "library"] else [])

/-- the form of a production with its action -/
def actOk (q : FProd) (a : FAct) : Bool :=
  q.rhs.any FSym.solid &&
  a.marks.all (fun m => (m.2.2 == str! "start" && m.2.1 && (q.rhs.drop m.1).any FSym.solid) ||
    (m.2.2 == str! "end" && (!m.2.1 || q.rhs.length == m.1) && (q.rhs.take m.1).any FSym.solid)) &&
  a.names.all (fun x => match x with | some x => !markName x | none => true) &&
  a.body.ok (allowedTexts q.rhs)


theorem actions_ok : ((grammarFile.zip fileActions).all fun p => actOk p.1 p.2) = true := by decide +kernel

theorem action_ok {i : Nat} {q : FProd} {a : FAct} (hq : grammarFile[i]? = some q) (ha : fileActions[i]? = some a) : actOk q a = true := by
  have := List.all_eq_true.1 actions_ok (q, a) (by
    rw [List.mem_iff_getElem?]
    exact ⟨i, by rw [List.getElem?_zip_eq_some]; exact ⟨hq, ha⟩⟩)
  exact this

/-- what holds for the pieces of input of a sequence of symbols -/
inductive GoodPieces : List FSym → List Piece → Prop
  | nil : GoodPieces [] []
  | cons {s : FSym} {α : List FSym} {p : Piece} {ps : List Piece} : FromTokens p.1 p.2 → (s.solid = true → p.1 ≠ []) →
      (∀ k, s = .tok k → ∃ t ∈ p.1, t.tok.kind = k) → GoodPieces α ps → GoodPieces (s :: α) (p :: ps)

theorem mem_inputOf {ps : List Piece} {p : Piece} (hp : p ∈ ps) {t : STok} (ht : t ∈ p.1) : t ∈ inputOf ps := by
  rw [inputOf, List.mem_flatten]
  exact ⟨p.1, List.mem_map_of_mem hp, ht⟩

theorem GoodPieces.from {α : List FSym} {ps : List Piece} (h : GoodPieces α ps) : ∀ p ∈ ps, FromTokens p.1 p.2 := by
  induction h with
  | nil => simp
  | cons h1 _ _ _ ih => intro p hp; rcases List.mem_cons.1 hp with rfl | hp; exact h1; exact ih p hp

theorem GoodPieces.keyword {α : List FSym} {ps : List Piece} (h : GoodPieces α ps) {k : Token} (hk : FSym.tok k ∈ α) :
    ∃ t ∈ inputOf ps, t.tok.kind = k := by
  induction h with
  | nil => cases hk
  | cons h1 h2 h3 h4 ih =>
    rcases List.mem_cons.1 hk with e | hk
    · obtain ⟨t, ht, e⟩ := h3 k e.symm
      exact ⟨t, mem_inputOf (by simp) ht, e⟩
    · obtain ⟨t, ht, e⟩ := ih hk
      exact ⟨t, by rw [inputOf] at ht ⊢; simp at ht ⊢; exact .inr ht, e⟩

theorem GoodPieces.drop {α : List FSym} {ps : List Piece} (h : GoodPieces α ps) (i : Nat) : GoodPieces (α.drop i) (ps.drop i) := by
  induction h generalizing i with
  | nil => simpa using GoodPieces.nil
  | cons h1 h2 h3 h4 ih =>
    cases i with
    | zero => exact .cons h1 h2 h3 h4
    | succ i => exact ih i

theorem GoodPieces.take {α : List FSym} {ps : List Piece} (h : GoodPieces α ps) (i : Nat) : GoodPieces (α.take i) (ps.take i) := by
  induction h generalizing i with
  | nil => simpa using GoodPieces.nil
  | cons h1 h2 h3 h4 ih =>
    cases i with
    | zero => exact .nil
    | succ i => exact .cons h1 h2 h3 (ih i)

theorem GoodPieces.length {α : List FSym} {ps : List Piece} (h : GoodPieces α ps) : α.length = ps.length := by
  induction h with
  | nil => rfl
  | cons _ _ _ _ ih => simp [ih]

theorem GoodPieces.nonempty {α : List FSym} {ps : List Piece} (h : GoodPieces α ps) (hs : α.any FSym.solid = true) :
    ∃ p ∈ ps, p.1 ≠ [] := by
  induction h with
  | nil => cases hs
  | cons h1 h2 h3 h4 ih =>
    simp only [List.any_cons, Bool.or_eq_true] at hs
    rcases hs with hs | hs
    · exact ⟨_, by simp, h2 hs⟩
    · obtain ⟨p, hp, h⟩ := ih hs
      exact ⟨p, by simp [hp], h⟩

theorem stopFrom_mem (t : STok) (w : List STok) : ∃ u ∈ t :: w, stopFrom t.stop w = u.stop := by
  induction w generalizing t with
  | nil => exact ⟨t, by simp, rfl⟩
  | cons u w ih =>
    obtain ⟨x, hx, e⟩ := ih u
    exact ⟨x, List.mem_cons_of_mem _ hx, e⟩

theorem firstStart_some {ps : List Piece} (h : ∃ p ∈ ps, p.1 ≠ []) :
    ∃ t ∈ inputOf ps, firstStart (ps.map fun p => spanOf p.1) = some t.start := by
  induction ps with
  | nil => simp at h
  | cons p ps ih =>
    obtain ⟨u, v⟩ := p
    cases u with
    | nil =>
      obtain ⟨q, hq, hn⟩ := h
      rcases List.mem_cons.1 hq with rfl | hq
      · exact absurd rfl hn
      · obtain ⟨t, ht, e⟩ := ih ⟨q, hq, hn⟩
        exact ⟨t, by simpa [inputOf] using ht, by simpa [spanOf, firstStart] using e⟩
    | cons t u => exact ⟨t, by simp [inputOf], by simp [spanOf, firstStart]⟩

theorem lastEnd_some {ps : List Piece} :
    (∀ q, lastEnd (ps.map fun p => spanOf p.1) = some q → ∃ t ∈ inputOf ps, q = t.stop) ∧
    ((∃ p ∈ ps, p.1 ≠ []) → (lastEnd (ps.map fun p => spanOf p.1)).isSome = true) := by
  induction ps with
  | nil => simp [lastEnd]
  | cons p ps ih =>
    obtain ⟨u, v⟩ := p
    simp only [List.map_cons, lastEnd]
    cases hl : lastEnd (ps.map fun p => spanOf p.1) with
    | some q =>
      obtain ⟨t, ht, e⟩ := ih.1 q hl
      refine ⟨?_, by simp⟩
      intro q' hq'
      simp only [Option.some.injEq] at hq'
      subst hq'
      exact ⟨t, by rw [inputOf] at ht ⊢; simp at ht ⊢; exact .inr ht, e⟩
    | none =>
      cases u with
      | nil =>
        refine ⟨by simp [spanOf], ?_⟩
        rintro ⟨q, hq, hn⟩
        rcases List.mem_cons.1 hq with rfl | hq
        · exact absurd rfl hn
        · have := ih.2 ⟨q, hq, hn⟩
          rw [hl] at this; cases this
      | cons t u =>
        refine ⟨?_, by simp [spanOf]⟩
        intro q hq
        simp only [spanOf, Option.map_some, Option.some.injEq] at hq
        obtain ⟨x, hx, e⟩ := stopFrom_mem t u
        exact ⟨x, mem_inputOf (p := (t :: u, v)) (by simp) hx, by rw [← hq, e]⟩

theorem mem_inputOf_drop {ps : List Piece} {i : Nat} {t : STok} (h : t ∈ inputOf (ps.drop i)) : t ∈ inputOf ps := by
  rw [inputOf, List.mem_flatten] at h
  obtain ⟨u, hu, ht⟩ := h
  obtain ⟨p, hp, rfl⟩ := List.mem_map.1 hu
  exact mem_inputOf (List.mem_of_mem_drop hp) ht

theorem mem_inputOf_take {ps : List Piece} {i : Nat} {t : STok} (h : t ∈ inputOf (ps.take i)) : t ∈ inputOf ps := by
  rw [inputOf, List.mem_flatten] at h
  obtain ⟨u, hu, ht⟩ := h
  obtain ⟨p, hp, rfl⟩ := List.mem_map.1 hu
  exact mem_inputOf (List.mem_of_mem_take hp) ht

theorem bindNames_good {w : List STok} {names : List (Option Str)} {vs : List RV}
    (hn : (names.all fun x => match x with | some x => !markName x | none => true) = true) (hv : ∀ v ∈ vs, FromTokens w v) :
    GoodScope w (bindNames names vs) := by
  induction names generalizing vs with
  | nil => intro b hb; simp [bindNames] at hb
  | cons x names ih =>
    simp only [List.all_cons, Bool.and_eq_true] at hn
    cases vs with
    | nil => intro b hb; cases x <;> simp [bindNames] at hb
    | cons v vs =>
      have ih := ih hn.2 (vs := vs) fun u hu => hv u (by simp [hu])
      cases x with
      | none => simpa [bindNames] using ih
      | some x =>
        rw [bindNames]
        refine ih.cons ((OkFor.plain ?_).mpr (hv v (by simp)))
        simpa using hn.1

/-- the value of an action -/
theorem action_good {q : FProd} {a : FAct} {ps : List Piece} {v : RV} (ho : actOk q a = true) (h : GoodPieces q.rhs ps)
    (hv : a.value (ps.map fun p => (spanOf p.1, p.2)) = some v) : FromTokens (inputOf ps) v := by
  simp only [actOk, Bool.and_eq_true] at ho
  obtain ⟨⟨⟨h0, h1⟩, h2⟩, h3⟩ := ho
  have hvs : ∀ v ∈ ps.map (·.2), FromTokens (inputOf ps) v := by
    intro v hv
    obtain ⟨p, hp, rfl⟩ := List.mem_map.1 hv
    exact (h.from p hp).mono fun t ht => mem_inputOf hp ht
  have hts : ∀ s ∈ allowedTexts q.rhs, FromTokens (inputOf ps) (.str s) := by
    have key : ∀ k : Token, ∀ s : Str, (∀ t : Token, t.kind = k → t.text = s) → FSym.tok k ∈ q.rhs → FromTokens (inputOf ps) (.str s) := by
      intro k s hk hm
      obtain ⟨t, ht, e⟩ := h.keyword hm
      rw [← hk t.tok e]
      exact .text ht
    intro s hs
    simp only [allowedTexts, List.mem_cons, List.mem_append] at hs
    rcases hs with rfl | hs | hs
    · exact .empty
    · split at hs
      · rename_i hc
        simp at hs; subst hs
        exact key .contract _ (by intro t ht; cases t <;> simp [Token.kind] at ht; rfl) (by simpa using hc)
      · simp at hs
    · split at hs
      · rename_i hc
        simp at hs; subst hs
        exact key .library _ (by intro t ht; cases t <;> simp [Token.kind] at ht; rfl) (by simpa using hc)
      · simp at hs
  refine Ex.good hts a.body h3 ?_ hv
  intro b hb
  rcases List.mem_append.1 hb with hb | hb
  · obtain ⟨m, hm, rfl⟩ := List.mem_map.1 hb
    have hm := List.all_eq_true.1 h1 m hm
    simp only [List.map_map, Function.comp_def]
    rw [Bool.or_eq_true] at hm
    simp only [Bool.and_eq_true, beq_iff_eq] at hm
    rcases hm with ⟨⟨e1, e2⟩, e3⟩ | ⟨⟨e1, e2⟩, e3⟩
    · obtain ⟨t, ht, e⟩ := firstStart_some ((h.drop m.1).nonempty e3)
      rw [OkFor, if_pos e1]
      refine ⟨t, mem_inputOf_drop ht, ?_⟩
      rw [List.map_drop] at e
      simp [markPos, e2, e]
    · have hl := lastEnd_some (ps := ps.take m.1)
      have h4 := hl.2 ((h.take m.1).nonempty e3)
      obtain ⟨p, hp⟩ := Option.isSome_iff_exists.1 h4
      obtain ⟨t, ht, e⟩ := hl.1 p hp
      rw [OkFor, if_neg (by rw [e1]; decide), if_pos e1]
      refine ⟨t, mem_inputOf_take ht, ?_⟩
      rw [List.map_take] at hp
      simp only [Bool.or_eq_true, Bool.not_eq_true', beq_iff_eq] at e2
      rcases e2 with e2 | e2
      · simp [markPos, e2, hp, e]
      · have hd : (ps.map fun p => spanOf p.1).drop m.1 = [] := by
          rw [List.drop_eq_nil_iff, List.length_map, ← h.length, e2]; exact Nat.le_refl _
        cases hb : m.2.1 <;> simp [markPos, hb, hd, firstStart, hp, e]
  · exact bindNames_good h2 (by simpa [List.map_map, Function.comp_def] using hvs) b hb

theorem Builds.good {α : List FSym} {ps : List Piece} (h : Builds α ps) : GoodPieces α ps := by
  induction h with
  | nil => exact .nil
  | tok hk h ih => exact .cons (.text (by simp)) (by simp) (by rintro k ⟨⟩; exact ⟨_, by simp, hk⟩) ih
  | non hq ha h1 hv h2 ih1 ih2 =>
    have ho := action_ok hq ha
    refine .cons (action_good ho ih1 hv) (fun _ => ?_) (by rintro k ⟨⟩) ih2
    simp only [actOk, Bool.and_eq_true] at ho
    obtain ⟨p, hp, hn⟩ := ih1.nonempty ho.1.1.1
    cases hc : p.1 with
    | nil => exact absurd hc hn
    | cons t u =>
      have : t ∈ inputOf _ := mem_inputOf hp (t := t) (by rw [hc]; simp)
      exact List.ne_nil_of_mem this
  | optNone h ih => exact .cons (.node (by decide) (by simp)) (by simp [FSym.solid]) (by rintro k ⟨⟩) ih
  | optSome h1 h2 ih1 ih2 =>
    have := ih1.from _ (List.mem_singleton.2 rfl)
    exact .cons (.node (by decide) (by simpa using this)) (by simp [FSym.solid]) (by rintro k ⟨⟩) ih2
  | starNil h ih => exact .cons (.vec (by simp)) (by simp [FSym.solid]) (by rintro k ⟨⟩) ih
  | starCons h1 h2 ih1 ih2 =>
    have h3 := ih1.from _ (List.mem_singleton.2 rfl)
    cases ih2 with
    | cons h4 h5 h6 h7 =>
      refine .cons (.vec ?_) (by simp [FSym.solid]) (by rintro k ⟨⟩) h7
      intro v hv
      rcases List.mem_cons.1 hv with rfl | hv
      · exact h3.mono (by intro t ht; simp [ht])
      · cases h4 with
        | vec hl => exact (hl v hv).mono (by intro t ht; simp [ht])
  | plus h1 h2 ih1 ih2 =>
    have h3 := ih1.from _ (List.mem_singleton.2 rfl)
    cases ih1 with
    | cons _ hne _ _ =>
    cases ih2 with
    | cons h4 h5 h6 h7 =>
      refine .cons (.vec ?_) (fun _ => by simp [hne rfl]) (by rintro k ⟨⟩) h7
      intro v hv
      rcases List.mem_cons.1 hv with rfl | hv
      · exact h3.mono (by intro t ht; simp [ht])
      · cases h4 with
        | vec hl => exact (hl v hv).mono (by intro t ht; simp [ht])

end Verif
