import Verif.Proofs.EditTame
import Verif.Proofs.MeaningProgram
import Verif.Proofs.PrintDerives
/-
Parts of a program that are recognised by their keywords can be exchanged.
-/
namespace Verif

theorem bare_lift' (w : List Token) : bare (lift w) = w := by simp [bare, lift, Function.comp_def]

theorem Is.fieldTame {n : NT} {w : List Token} (h : Is n w) (hn : hasField n = false) : FieldTame w := by
  obtain ⟨v, d⟩ := h
  have := d.fieldTame.1 hn
  rwa [bare_lift'] at this

theorem Is.contractTame {n : NT} {w : List Token} (h : Is n w) (hn : belowContract n = true) : ContractTame w := by
  obtain ⟨v, d⟩ := h
  have := d.contractTame hn
  rwa [bare_lift'] at this

theorem Is.noEquals {n : NT} {w : List Token} (h : Is n w) (hn : isTypeNT n = true) : Token.equals ∉ w := by
  obtain ⟨v, d⟩ := h
  have := d.noEquals hn
  rwa [bare_lift'] at this

theorem Is.noTransition {n : NT} {w : List Token} (h : Is n w) (hn : belowComponent n = true) : Token.transition ∉ w := by
  obtain ⟨v, d⟩ := h
  have := (d.noCompKeyword hn).1
  rw [bare_lift'] at this
  exact List.count_eq_zero.1 this

theorem Is.noProcedure {n : NT} {w : List Token} (h : Is n w) (hn : belowComponent n = true) : Token.procedure ∉ w := by
  obtain ⟨v, d⟩ := h
  have := (d.noCompKeyword hn).2
  rw [bare_lift'] at this
  exact List.count_eq_zero.1 this

theorem Is.procNoTransition {w : List Token} (h : Is .procDef w) : Token.transition ∉ w := by
  obtain ⟨v, d⟩ := h
  cases d with
  | procDef hw d1 d2 d3 =>
    have e : w = bare (lift w) := (bare_lift' w).symm
    rw [e, hw]
    simp [List.count_eq_zero.1 (d1.noCompKeyword rfl).1, List.count_eq_zero.1 (d2.noCompKeyword rfl).1,
      List.count_eq_zero.1 (d3.noCompKeyword rfl).1]

theorem Says.is {w : List Token} {l : List Str} {o : Option Ty} (h : Says .alone w l o) : Is .scillaType w := by
  obtain ⟨v, d, -⟩ := h.reads
  exact ⟨v, .typeRem d⟩
theorem TypedSays.is {w : List Token} {l : List Str} {f : Field} (h : TypedSays w l f) : Is .typedId w := by
  obtain ⟨v, d, -⟩ := h.reads
  exact ⟨v, d⟩
theorem ParamsSay.is {w : List Token} {l : List Str} {fs : List Field} (h : ParamsSay w l fs) : Is .compParams w := by
  obtain ⟨v, d, -⟩ := h.reads
  exact ⟨v, d⟩
theorem FieldsSay.is {w : List Token} {l : List Str} {fs : List Field} (h : FieldsSay w l fs) : Is (.star .contractField) w := by
  obtain ⟨v, d, -⟩ := h.reads
  exact ⟨v, d⟩
theorem ComponentsSay.is {w : List Token} {ts : List Transition} (h : ComponentsSay w ts) : Is (.star .compDef) w := by
  obtain ⟨v, d, -⟩ := h.reads
  exact ⟨v, d⟩

/-! ### Parameter lists end at their closing parenthesis -/

theorem Is.params_inner {w : List Token} (h : Is .compParams w) :
    ∃ u, w = .openParen :: (u ++ [.closeParen]) ∧ ∀ st r, nested st (u ++ r) = nested st r := by
  obtain ⟨v, d⟩ := h
  have e := (bare_lift' w).symm
  cases d with
  | @compParams _ w1 w2 p ps s1 e1 s2 e2 hw d1 d2 =>
    refine ⟨bare w1 ++ bare w2, ?_, fun st r => ?_⟩
    · rw [e, hw]; simp
    · rw [List.append_assoc, d1.nested, d2.nested]

theorem params_prefix {a b u v : List Token} (ha : Is .compParams a) (hb : Is .compParams b) (h : a ++ u = b ++ v) :
    a = b := by
  have key : ∀ {a b c : List Token}, Is .compParams a → Is .compParams b → b = a ++ c → c = [] := by
    intro a b c ha hb h
    obtain ⟨x, rfl, hx⟩ := ha.params_inner
    obtain ⟨y, rfl, hy⟩ := hb.params_inner
    rcases List.eq_nil_or_concat c with rfl | ⟨c', t, rfl⟩
    · rfl
    · have h' : y ++ [.closeParen] = (x ++ .closeParen :: c') ++ [t] := by simpa using h
      have := List.append_inj_left' h' rfl
      have e := hy [] []
      rw [this, List.append_nil, hx] at e
      simp [nested] at e
  rw [List.append_eq_append_iff] at h
  rcases h with ⟨c, h, -⟩ | ⟨c, h, -⟩
  · have := key ha hb h; subst this; simpa using h.symm
  · have := key hb ha h; subst this; simpa using h

/-! ### Lists of tokens split at a token -/

/-- a token that is not in the first part -/
theorem split_after {t : Token} {u v a b : List Token} (hu : t ∉ u) (h : u ++ v = a ++ t :: b) :
    ∃ a', a = u ++ a' ∧ v = a' ++ t :: b := by
  rw [List.append_eq_append_iff] at h
  rcases h with ⟨c, rfl, h⟩ | ⟨c, h, h'⟩
  · exact ⟨c, rfl, h⟩
  · cases c with
    | nil => exact ⟨[], by simpa using h.symm, by simpa using h'.symm⟩
    | cons x c =>
      simp only [List.cons_append, List.cons.injEq] at h'
      exact absurd (by rw [h, h'.1]; simp) hu

/-- the first occurrence of a token -/
theorem split_first {t : Token} {u v a b : List Token} (hu : t ∉ u) (ha : t ∉ a) (h : u ++ t :: v = a ++ t :: b) :
    u = a ∧ v = b := by
  obtain ⟨c, rfl, h'⟩ := split_after hu h
  cases c with
  | nil => simpa using h'
  | cons x c =>
    simp only [List.cons_append, List.cons.injEq] at h'
    exact absurd (by simp [h'.1]) ha

/-! ### Transitions -/

/-- The transitions before and after a keyword `transition` do not depend on the name and the parameters after it. -/
theorem ComponentsSay.split {ws : List Token} {ts : List Transition} (h : ComponentsSay ws ts) :
    ∀ {a : List Token} {n : Token} {ps b : List Token}, Is .compParams ps → ws = a ++ .transition :: n :: (ps ++ b) →
    ∃ t1 s fs t2, ts = t1 ++ ⟨s, fs⟩ :: t2 ∧ t1.length = a.count .transition ∧ NameTok s n ∧ ParamsSay ps [] fs ∧
      ∀ n' s' ps' fs', NameTok s' n' → ParamsSay ps' [] fs' →
        ComponentsSay (a ++ .transition :: n' :: (ps' ++ b)) (t1 ++ ⟨s', fs'⟩ :: t2) := by
  induction h with
  | nil => intro a n ps b _ h; simp at h
  | @procedure w ws ts hp _ ih =>
    intro a n ps b hi h
    obtain ⟨a', rfl, h'⟩ := split_after hp.procNoTransition h
    obtain ⟨t1, s, fs, t2, h1, h2, h3, h4, h5⟩ := ih hi h'
    refine ⟨t1, s, fs, t2, h1, ?_, h3, h4, fun n' s' ps' fs' e e' => ?_⟩
    · rw [List.count_append, h2, List.count_eq_zero.2 hp.procNoTransition, Nat.zero_add]
    · rw [List.append_assoc]
      exact .procedure hp (h5 n' s' ps' fs' e e')
  | @transition n0 s0 ps0 body ws fs0 ts hn hps hb hws ih =>
    intro a n ps b hi h
    cases a with
    | nil =>
      simp only [List.nil_append, List.cons.injEq, true_and] at h
      obtain ⟨rfl, h⟩ := h
      have e := params_prefix hps.is hi h
      subst e
      have e := List.append_cancel_left h
      subst e
      refine ⟨[], s0, fs0, ts, rfl, rfl, hn, hps, fun n' s' ps' fs' e e' => ?_⟩
      exact .transition e e' hb hws
    | cons x a =>
      simp only [List.cons_append, List.cons.injEq] at h
      obtain ⟨rfl, h⟩ := h
      have hfree : Token.transition ∉ n0 :: (ps0 ++ body) := by
        have h1 := hps.is.noTransition rfl
        have h2 := hb.noTransition rfl
        have h3 : n0 ≠ .transition := by
          cases hn with
          | lower => simp
          | type _ h => cases h <;> simp
        simp [h1, h2, h3.symm]
      obtain ⟨a', rfl, h'⟩ := split_after (u := n0 :: (ps0 ++ body)) (v := ws) hfree (by simpa using h)
      obtain ⟨t1, s, fs, t2, h1, h2, h3, h4, h5⟩ := ih hi h'
      refine ⟨⟨s0, fs0⟩ :: t1, s, fs, t2, by rw [h1]; rfl, ?_, h3, h4, fun n' s' ps' fs' e e' => ?_⟩
      · rw [List.count_cons, List.count_append, List.count_eq_zero.2 hfree, List.length_cons, h2]; simp
      · have := ComponentsSay.transition hn hps hb (h5 n' s' ps' fs' e e')
        simpa using this

/-! ### Fields -/

/-- the text before does not end in `contract` or `,` -/
def FreeEnd (a : List Token) : Prop := ∀ t, a.getLast? = some t → t ≠ .contract ∧ t ≠ .comma

theorem FreeEnd.of_append {u a : List Token} (h : FreeEnd (u ++ a)) : FreeEnd a := by
  intro t ht
  refine h t ?_
  rw [List.getLast?_append, ht]; rfl

/-- a `field` that is not of an address type is not in the first part -/
theorem split_tame {u v a b : List Token} (hu : FieldTame u) (ha : FreeEnd a) (h : u ++ v = a ++ .field :: b) :
    ∃ a', a = u ++ a' ∧ v = a' ++ .field :: b := by
  rw [List.append_eq_append_iff] at h
  rcases h with ⟨c, rfl, h⟩ | ⟨c, h, h'⟩
  · exact ⟨c, rfl, h⟩
  · cases c with
    | nil => exact ⟨[], by simpa using h.symm, by simpa using h'.symm⟩
    | cons x c =>
      simp only [List.cons_append, List.cons.injEq] at h'
      obtain ⟨rfl, -⟩ := h'
      obtain ⟨a', t, rfl, ht⟩ := hu _ _ h
      have := ha t (by simp)
      rcases ht with rfl | rfl
      · exact absurd rfl this.1
      · exact absurd rfl this.2

theorem FieldsSay.append {a b : List Token} {l l' : List Str} {f g : List Field} (h : FieldsSay a l f)
    (h' : FieldsSay b l' g) : FieldsSay (a ++ b) (l' ++ l) (f ++ g) := by
  induction h with
  | nil => simpa using h'
  | cons ht hi _ ih =>
    have := FieldsSay.cons ht hi ih
    simpa using this

/-- At a keyword `field` that is not of an address type the fields fall into two parts. -/
theorem FieldsSay.split {ws : List Token} {ls : List Str} {fs : List Field} (h : FieldsSay ws ls fs) {comps : List Token}
    (hc : FieldTame comps) : ∀ {a b : List Token}, FreeEnd a → ws ++ comps = a ++ .field :: b →
    ∃ l1 f1 r l2 f2, FieldsSay a l1 f1 ∧ .field :: b = r ++ comps ∧ FieldsSay r l2 f2 ∧ f2 ≠ [] ∧ fs = f1 ++ f2 := by
  induction h with
  | nil =>
    intro a b ha h
    obtain ⟨a', t, rfl, ht⟩ := hc _ _ h
    have := ha t (by simp)
    rcases ht with rfl | rfl
    · exact absurd rfl this.1
    · exact absurd rfl this.2
  | @cons w init ws l ls f fs ht hi hws ih =>
    intro a b ha h
    cases a with
    | nil =>
      simp only [List.nil_append] at h
      exact ⟨[], [], _, _, _, .nil, h.symm, .cons ht hi hws, by simp, rfl⟩
    | cons x a =>
      simp only [List.cons_append, List.cons.injEq] at h
      obtain ⟨rfl, h⟩ := h
      have hfree : FieldTame (w ++ .equals :: init) :=
        (ht.is.fieldTame rfl).append (.cons (by simp) (hi.fieldTame rfl))
      obtain ⟨a', rfl, h'⟩ := split_tame (u := w ++ .equals :: init) (v := ws ++ comps) hfree
        (FreeEnd.of_append (u := [.field]) ha) (by simpa using h)
      obtain ⟨l1, f1, r, l2, f2, h1, h2, h3, h4, h5⟩ := ih (FreeEnd.of_append (u := .field :: (w ++ .equals :: init)) ha) h'
      refine ⟨l1 ++ l, f :: f1, r, l2, f2, ?_, h2, h3, h4, by rw [h5]; rfl⟩
      have := FieldsSay.cons ht hi h1
      simpa using this

/-- the first of some fields -/
theorem FieldsSay.first {ws : List Token} {ls : List Str} {fs : List Field} (h : FieldsSay ws ls fs)
    {x : Str} {w b r : List Token} (hw : Is .scillaType w)
    (e : ws ++ r = .field :: .identifier x :: .colon :: (w ++ .equals :: b)) (hne : fs ≠ []) :
    ∃ l t gs init ws' ls', Says .alone w l (some t) ∧ fs = ⟨x, t⟩ :: gs ∧ Is .fullExpr init ∧
      FieldsSay ws' ls' gs ∧ b = init ++ (ws' ++ r) := by
  cases h with
  | nil => exact absurd rfl hne
  | @cons w0 init ws l ls f fs ht hi hws =>
    cases ht with
    | @mk y w0 l t hs =>
      simp only [List.cons_append, List.append_assoc, List.cons.injEq, true_and, Token.identifier.injEq] at e
      obtain ⟨rfl, e⟩ := e
      obtain ⟨rfl, rfl⟩ := split_first (hs.is.noEquals rfl) (hw.noEquals rfl) e
      exact ⟨l, t, fs, init, ws, ls, hs, rfl, hi, hws, rfl⟩

theorem TypeNameTok.ne {s : Str} {n : Token} (h : TypeNameTok s n) : n ≠ .field ∧ n ≠ .end_ ∧ n ≠ .contract := by
  cases h <;> simp

theorem HeadSays.fieldTame {w : List Token} {s : Str} {fs : List Field} (h : HeadSays w s fs) : FieldTame w := by
  cases h with
  | mk hi hl hn hp hc =>
    refine .cons (by simp) (.cons (by simp) ((hi.fieldTame rfl).append ((hl.fieldTame rfl).append
      (.cons (by simp) (.cons hn.ne.1 ((hp.is.fieldTame rfl).append (hc.fieldTame rfl)))))))

theorem HeadSays.noKeyword {w : List Token} {s : Str} {fs : List Field} (h : HeadSays w s fs) :
    Token.transition ∉ w ∧ Token.procedure ∉ w := by
  cases h with
  | @mk _ _ n _ _ _ _ _ _ hi hl hn hp hc =>
    have h3 : n ≠ .transition ∧ n ≠ .procedure := by cases hn <;> simp
    simp [hi.noTransition rfl, hi.noProcedure rfl, hl.noTransition rfl, hl.noProcedure rfl, hp.is.noTransition rfl,
      hp.is.noProcedure rfl, hc.noTransition rfl, hc.noProcedure rfl, h3.1.symm, h3.2.symm]

theorem ComponentsSay.head {w : List Token} {ts : List Transition} (h : ComponentsSay w ts) :
    w = [] ∨ ∃ k u, w = k :: u ∧ (k = .transition ∨ k = .procedure) := by
  induction h with
  | nil => exact .inl rfl
  | @procedure w ws ts hp _ _ =>
    obtain ⟨v, d⟩ := hp
    have e := (bare_lift' w).symm
    cases d with
    | procDef hw =>
      rw [hw] at e
      right
      rw [e]
      exact ⟨.procedure, _, rfl, .inr rfl⟩
  | transition => exact .inr ⟨_, _, rfl, .inl rfl⟩

/-! ### The contract -/

theorem HeadSays.split {w : List Token} {s : Str} {fs : List Field} (h : HeadSays w s fs) {rest : List Token}
    (hr : ContractTame rest) {a : List Token} {n : Token} {ps b : List Token} (hn : ∃ s, TypeNameTok s n)
    (hp : Is .compParams ps) (e : w ++ rest = a ++ .contract :: n :: (ps ++ b)) :
    ∃ l con, TypeNameTok s n ∧ ParamsSay ps l fs ∧ b = con ++ rest ∧
      ∀ n' s' ps' l' fs', TypeNameTok s' n' → ParamsSay ps' l' fs' →
        HeadSays (a ++ .contract :: n' :: (ps' ++ con)) s' fs' := by
  obtain ⟨s', hn⟩ := hn
  cases h with
  | @mk ver _ n0 imps lib ps0 con l fs hi hl hn0 hp0 hc =>
    have bad : ∀ {u c d : List Token}, ContractTame u → u = c ++ .contract :: n :: d → False := by
      intro u c d hu e
      obtain ⟨t, b', e, ht⟩ := hu _ _ e
      simp only [List.cons.injEq] at e
      rcases ht with rfl | rfl
      · exact hn.ne.1 e.1
      · exact hn.ne.2.1 e.1
    have htame : ContractTame (.scillaVersion :: .number ver :: (imps ++ lib)) :=
      .cons (by simp) (.cons (by simp) ((hi.contractTame rfl).append (hl.contractTame rfl)))
    have htame' : ContractTame (n0 :: (ps0 ++ (con ++ rest))) :=
      .cons hn0.ne.2.2 ((hp0.is.contractTame rfl).append ((hc.contractTame rfl).append hr))
    have e' : (.scillaVersion :: .number ver :: (imps ++ lib)) ++ .contract :: (n0 :: (ps0 ++ (con ++ rest))) =
        a ++ .contract :: n :: (ps ++ b) := by simpa using e
    rw [List.append_eq_append_iff] at e'
    rcases e' with ⟨c, rfl, e'⟩ | ⟨c, h, h'⟩
    · cases c with
      | nil =>
        simp only [List.nil_append, List.cons.injEq, true_and] at e'
        obtain ⟨rfl, e'⟩ := e'
        have := params_prefix hp0.is hp e'
        subst this
        have := List.append_cancel_left e'
        subst this
        refine ⟨l, con, hn0, hp0, rfl, fun n' s' ps' l' fs' h h' => ?_⟩
        have := HeadSays.mk (ver := ver) hi hl h h' hc
        simpa using this
      | cons x c =>
        simp only [List.cons_append, List.cons.injEq] at e'
        exact (bad htame' e'.2).elim
    · cases c with
      | nil =>
        simp only [List.nil_append, List.cons.injEq, true_and] at h'
        obtain ⟨rfl, e'⟩ := h'
        have := params_prefix hp hp0.is e'
        subst this
        have := List.append_cancel_left e'
        subst this
        refine ⟨l, con, hn0, hp0, rfl, fun n' s' ps' l' fs' h0 h' => ?_⟩
        have := HeadSays.mk (ver := ver) hi hl h0 h' hc
        rw [List.append_nil] at h
        rw [← h]
        simpa using this
      | cons x c =>
        simp only [List.cons_append, List.cons.injEq] at h'
        obtain ⟨rfl, h'⟩ := h'
        cases c with
        | nil =>
          simp only [List.nil_append, List.cons.injEq] at h'
          exact (hn.ne.2.2 h'.1).elim
        | cons y c =>
          simp only [List.cons_append, List.cons.injEq] at h'
          obtain ⟨rfl, -⟩ := h'
          exact (bad htame h).elim

end Verif
