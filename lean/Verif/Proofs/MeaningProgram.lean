import Verif.Proofs.MeaningDerives
import Verif.Proofs.StripDerives
/-
The meaning of the tokens of a program is what its syntax tree is read as.
-/
namespace Verif

/-- a typed identifier is read as a field -/
def TypedReads (n : NodeTypedIdentifier) (l : List Str) (f : Field) : Prop :=
  ∃ t, readTypeW n.annotation.node.typeName = .clean l (some t) ∧ f = ⟨n.identifierName.node, t⟩

theorem readAll_cons_ok {n : NodeTypedIdentifier} {ns : List NodeTypedIdentifier} {l ls : List Str} {f : Field}
    {fs : List Field} (h : TypedReads n l f) (h' : readAll ns = .ok (ls, fs)) :
    readAll (n :: ns) = .ok (ls ++ l, f :: fs) := by
  obtain ⟨t, h, rfl⟩ := h
  rw [readAll, h, h']

theorem readAll_cons_inv {n : NodeTypedIdentifier} {ns : List NodeTypedIdentifier} {k : List Str} {gs : List Field}
    (h : readAll (n :: ns) = .ok (k, gs)) : ∃ l ls f fs, TypedReads n l f ∧ readAll ns = .ok (ls, fs) ∧ k = ls ++ l ∧
      gs = f :: fs := by
  rw [readAll] at h
  cases e : readTypeW n.annotation.node.typeName with
  | bad w => rw [e] at h; simp at h
  | clean l o =>
    rw [e] at h
    cases o with
    | none => simp at h
    | some t =>
      cases e' : readAll ns with
      | error w => rw [e'] at h; simp at h
      | ok r =>
        rw [e'] at h
        simp only [Except.ok.injEq, Prod.mk.injEq] at h
        exact ⟨l, r.1, _, r.2, ⟨t, e, rfl⟩, rfl, h.1.symm, h.2.symm⟩

theorem readTransitions_cons_inv {t : NodeTransitionDefinition} {ts : List NodeTransitionDefinition} {rs : List Transition}
    (h : readTransitions (t :: ts) = .ok rs) : ∃ ps l, readAll (typedOf t.parameters.node.parameters) = .ok ([], ps) ∧
      readTransitions ts = .ok l ∧ rs = ⟨componentName t.name.node, ps⟩ :: l := by
  rw [readTransitions] at h
  cases e : readAll (typedOf t.parameters.node.parameters) with
  | error w => rw [e] at h; simp at h
  | ok r =>
    obtain ⟨k, ps⟩ := r
    rw [e] at h
    cases k with
    | cons => simp at h
    | nil =>
      cases e' : readTransitions ts with
      | error w => simp [e'] at h
      | ok l =>
        simp only [e', Except.ok.injEq] at h
        exact ⟨ps, l, rfl, rfl, h.symm⟩

/-! ### What is said is read -/

theorem TypedSays.reads {w : List Token} {l : List Str} {f : Field} (h : TypedSays w l f) :
    ∃ v, Derives .typedId (lift w) v ∧ TypedReads v.node l f := by
  cases h with
  | @mk x w l t h =>
    obtain ⟨v, d, e⟩ := h.reads
    exact ⟨_, .typedId (w1 := lift [.identifier x]) (w2 := lift (.colon :: w)) (by simp)
      (.regularId rfl) (.typeAnn rfl (.typeRem d)), t, by simpa only [mkW] using e, rfl⟩

theorem MoreSays.reads {w : List Token} {l : List Str} {fs : List Field} (h : MoreSays w l fs) :
    ∃ vs, Derives (.star .nextParamPair) (lift w) vs ∧ readAll (typedOf vs) = .ok (l, fs) := by
  induction h with
  | nil => exact ⟨_, .starNil, rfl⟩
  | @cons w ws l ls f fs h _ ih =>
    obtain ⟨v, d, e⟩ := h.reads
    obtain ⟨vs, ds, es⟩ := ih
    refine ⟨mkW (lift w) ⟨v⟩ :: vs, ?_, readAll_cons_ok e es⟩
    have : lift (.comma :: (w ++ ws)) = lift (.comma :: w) ++ lift ws := by simp
    rw [this]
    exact .starCons (.nextParamPair rfl (.paramPair d)) ds

theorem ParamsSay.reads {w : List Token} {l : List Str} {fs : List Field} (h : ParamsSay w l fs) :
    ∃ v, Derives .compParams (lift w) v ∧ readAll (typedOf v.node.parameters) = .ok (l, fs) := by
  cases h with
  | usual h h' =>
    obtain ⟨v, d, e⟩ := h.reads
    obtain ⟨vs, ds, es⟩ := h'.reads
    exact ⟨_, .compParams (by simp; repeat' constructor) (.optSome (.paramPair d)) ds, readAll_cons_ok e es⟩
  | @comma ws ls fs h =>
    obtain ⟨vs, ds, es⟩ := h.reads
    exact ⟨_, .compParams (w1 := []) (w2 := lift ws) (by simp; repeat' constructor) .optNone ds, es⟩

theorem FieldsSay.reads {w : List Token} {l : List Str} {fs : List Field} (h : FieldsSay w l fs) :
    ∃ vs, Derives (.star .contractField) (lift w) vs ∧ readAll (fieldTypedOf vs) = .ok (l, fs) := by
  induction h with
  | nil => exact ⟨_, .starNil, rfl⟩
  | @cons w init ws l ls f fs h hi _ ih =>
    obtain ⟨v, d, e⟩ := h.reads
    obtain ⟨i, hi⟩ := hi
    obtain ⟨vs, ds, es⟩ := ih
    refine ⟨mkW (lift (.field :: (w ++ .equals :: init))) ⟨v, i⟩ :: vs, ?_, readAll_cons_ok (n := v.node) e es⟩
    have : lift (.field :: (w ++ .equals :: (init ++ ws))) =
        lift (.field :: (w ++ .equals :: init)) ++ lift ws := by simp
    rw [this]
    exact .starCons (.contractField (by simp; repeat' constructor) d hi) ds

theorem ComponentsSay.reads {w : List Token} {ts : List Transition} (h : ComponentsSay w ts) :
    ∃ vs, Derives (.star .compDef) (lift w) vs ∧ readTransitions (transitionsOf vs) = .ok ts := by
  induction h with
  | nil => exact ⟨_, .starNil, rfl⟩
  | @procedure w ws ts hp _ ih =>
    obtain ⟨v, hv⟩ := hp
    obtain ⟨vs, hvs, es⟩ := ih
    refine ⟨mkW (lift w) (.procedureComponent v) :: vs, ?_, ?_⟩
    · rw [lift_append]; exact .starCons (.compProcedure hv) hvs
    · simpa [transitionsOf, mkW] using es
  | @transition n s ps body ws fs ts hn hps hb _ ih =>
    obtain ⟨q, hq, eq⟩ := hps.reads
    obtain ⟨b, hb⟩ := hb
    obtain ⟨vs, hvs, es⟩ := ih
    have hc : ∃ c, Derives .componentId (lift [n]) c ∧ componentName c.node = s := by
      cases hn with
      | lower => exact ⟨_, .componentRegular (.regularId rfl), rfl⟩
      | type _ hn =>
        obtain ⟨v, hv, e⟩ := derives_typeTok hn
        exact ⟨_, .componentType hv, e⟩
    obtain ⟨c, hc, ec⟩ := hc
    have hd : Derives .compDef (lift (.transition :: n :: (ps ++ body))) _ :=
      .compTransition (.transDef (w1 := lift [n]) (w2 := lift ps) (w3 := lift body)
        (by simp; repeat' constructor) hc hq hb)
    generalize hg : mkW (lift (.transition :: n :: (ps ++ body))) _ = g at hd
    refine ⟨g :: vs, ?_, ?_⟩
    · have : lift (.transition :: n :: (ps ++ (body ++ ws))) =
          lift (.transition :: n :: (ps ++ body)) ++ lift ws := by simp
      rw [this]
      exact .starCons hd hvs
    · subst hg
      have e : transitionsOf (mkW (lift (.transition :: n :: (ps ++ body))) (NodeComponentDefinition.transitionComponent
          (mkW (lift (.transition :: n :: (ps ++ body))) ⟨c, q, b⟩)) :: vs) = ⟨c, q, b⟩ :: transitionsOf vs := by
        simp [transitionsOf, mkW]
      rw [e, readTransitions, eq]
      simp only [es, ec]

theorem ProgramSays.reads {w : List Token} {c : Contract} (h : ProgramSays w c) :
    ∃ p, Derives .program (lift w) p ∧ readProgram p = .ok c := by
  cases h with
  | @mk head fields comps name ps fs ls ts hh hfs hcs =>
    cases hh with
    | @mk ver name n imps lib pw con l ps himp hlib hn hps hcon =>
      obtain ⟨nm, hnm, enm⟩ := derives_typeTok hn
      obtain ⟨i, hi⟩ := himp
      obtain ⟨l, hl⟩ := hlib
      obtain ⟨k, hk⟩ := hcon
      obtain ⟨p, hp, ep⟩ := hps.reads
      obtain ⟨f, hf, ef⟩ := hfs.reads
      obtain ⟨t, ht, et⟩ := hcs.reads
      refine ⟨_, .program (w1 := lift [.number ver]) (w2 := lift imps) (w3 := lift lib)
        (w4 := lift (.contract :: n :: (pw ++ (con ++ (fields ++ comps)))))
        (by simp; repeat' constructor) (.signedInt rfl) hi hl
        (.contractDef (w1 := lift [n]) (w2 := lift pw) (w3 := lift con)
          (w4 := lift fields) (w5 := lift comps) (by simp; repeat' constructor)
          hnm hp hk hf ht), ?_⟩
      simp only [readProgram, mkW, ep, ef, et, enm]

/-! ### What is read is said -/

theorem Derives.is {n : NT} {w : List STok} {v : Val n} (d : Derives n w v) : Is n (wordsOf w) := by
  have e : lift (wordsOf w) = w.map STok.strip := by simp [lift, wordsOf, STok.strip]
  exact ⟨stripV n v, by rw [e]; exact d.strip⟩

theorem says_typed {w : List STok} {v : W NodeTypedIdentifier} (d : Derives .typedId w v) {l : List Str} {f : Field}
    (h : TypedReads v.node l f) : TypedSays (wordsOf w) l f := by
  cases d with
  | @typedId w w1 w2 x a hw dx da =>
    cases da with
    | @typeAnn w2 w3 t s1 e1 hw2 dt =>
      obtain ⟨ty, h, rfl⟩ := h
      have hx : wordsOf w1 = [.identifier x.node] := dx.says
      have ht := dt.says _ _ h
      rw [hw, hw2, wordsOf_append, wordsOf_cons, hx]
      exact .mk ht

theorem says_pair {w : List STok} {v : W NodeParameterPair} (d : Derives .paramPair w v) {l : List Str} {f : Field}
    (h : TypedReads v.node.identifierWithType.node l f) : TypedSays (wordsOf w) l f := by
  cases d with
  | paramPair d => exact says_typed d h

theorem says_more : ∀ (vs : List (W NodeParameterPair)) (w : List STok) (l : List Str) (fs : List Field),
    Derives (.star .nextParamPair) w vs → readAll (typedOf vs) = .ok (l, fs) → MoreSays (wordsOf w) l fs
  | [], w, l, fs, d, h => by
    cases d
    simp only [typedOf, List.map_nil, readAll, Except.ok.injEq, Prod.mk.injEq] at h
    obtain ⟨rfl, rfl⟩ := h
    exact .nil
  | v :: vs, w, l, fs, d, h => by
    cases d with
    | starCons d1 d2 =>
      cases d1 with
      | nextParamPair hw d1 =>
        obtain ⟨k, ls, f, gs, h1, h2, rfl, rfl⟩ := readAll_cons_inv h
        have := MoreSays.cons (says_pair d1 h1) (says_more vs _ _ _ d2 h2)
        rw [hw]
        simpa using this

theorem says_params {w : List STok} {v : W NodeComponentParameters} (d : Derives .compParams w v) {l : List Str}
    {fs : List Field} (h : readAll (typedOf v.node.parameters) = .ok (l, fs)) : ParamsSay (wordsOf w) l fs := by
  cases d with
  | @compParams w w1 w2 p ps s1 e1 s2 e2 hw d1 d2 =>
    rw [hw, wordsOf_cons, wordsOf_append, wordsOf_append]
    cases d1 with
    | optNone => exact .comma (says_more _ _ _ _ d2 h)
    | optSome d1 =>
      obtain ⟨k, ls, f, gs, h1, h2, rfl, rfl⟩ := readAll_cons_inv h
      exact .usual (says_pair d1 h1) (says_more _ _ _ _ d2 h2)

theorem says_fields : ∀ (vs : List (W NodeContractField)) (w : List STok) (l : List Str) (fs : List Field),
    Derives (.star .contractField) w vs → readAll (fieldTypedOf vs) = .ok (l, fs) → FieldsSay (wordsOf w) l fs
  | [], w, l, fs, d, h => by
    cases d
    simp only [fieldTypedOf, List.map_nil, readAll, Except.ok.injEq, Prod.mk.injEq] at h
    obtain ⟨rfl, rfl⟩ := h
    exact .nil
  | v :: vs, w, l, fs, d, h => by
    cases d with
    | starCons d1 d2 =>
      cases d1 with
      | contractField hw dt de =>
        obtain ⟨k, ls, f, gs, h1, h2, rfl, rfl⟩ := readAll_cons_inv h
        have := FieldsSay.cons (says_typed dt h1) de.is (says_fields vs _ _ _ d2 h2)
        rw [hw]
        simpa using this

theorem says_typeName {w : List STok} {v : W NodeTypeNameIdentifier} (d : Derives .typeName w v) :
    ∃ n, wordsOf w = [n] ∧ TypeNameTok v.node.display n := by
  cases d with
  | typeNameBytes d => cases d with | byteString hw => subst hw; exact ⟨_, rfl, .bytes _⟩
  | typeNameEvent hw => subst hw; exact ⟨_, rfl, .event⟩
  | typeNameCustom d => cases d with | customId hw => subst hw; exact ⟨_, rfl, .upper _⟩

theorem says_component {w : List STok} {v : W NodeComponentId} (d : Derives .componentId w v) :
    ∃ n, wordsOf w = [n] ∧ NameTok (componentName v.node) n := by
  cases d with
  | componentType d => obtain ⟨n, h, h'⟩ := says_typeName d; exact ⟨n, h, .type _ _ h'⟩
  | componentRegular d => cases d with | regularId hw => subst hw; exact ⟨_, rfl, .lower _⟩

theorem says_components : ∀ (vs : List (W NodeComponentDefinition)) (w : List STok) (ts : List Transition),
    Derives (.star .compDef) w vs → readTransitions (transitionsOf vs) = .ok ts → ComponentsSay (wordsOf w) ts
  | [], w, ts, d, h => by
    cases d
    simp only [transitionsOf, List.filterMap_nil, readTransitions, Except.ok.injEq] at h
    subst h
    exact .nil
  | v :: vs, w, ts, d, h => by
    cases d with
    | @starCons _ u1 _ u2 _ d1 d2 =>
      cases d1 with
      | compProcedure d1 =>
        rw [wordsOf_append]
        exact .procedure d1.is (says_components vs _ _ d2 (by simpa [transitionsOf, mkW] using h))
      | @compTransition _ t d1 =>
        have e : transitionsOf (mkW u1 (NodeComponentDefinition.transitionComponent t) :: vs) = t.node :: transitionsOf vs := by
          simp [transitionsOf, mkW]
        rw [e] at h
        obtain ⟨ps, l, h1, h2, rfl⟩ := readTransitions_cons_inv h
        cases d1 with
        | transDef hw dn dp db =>
          obtain ⟨n, hn, hn'⟩ := says_component dn
          have := ComponentsSay.transition hn' (says_params dp h1) db.is (says_components vs _ _ d2 h2)
          rw [hw]
          simpa [hn, mkW] using this

theorem says_program {w : List STok} {p : NodeProgram} (d : Derives .program w p) {c : Contract}
    (h : readProgram p = .ok c) : ProgramSays (wordsOf w) c := by
  cases d with
  | @program _ w1 w2 w3 w4 ver imps lib c0 s0 e0 hw d1 d2 d3 d4 =>
    cases d4 with
    | @contractDef _ u1 u2 u3 u4 u5 n ps con fs cs s1 e1 hw4 f1 f2 f3 f4 f5 =>
      cases d1 with
      | @signedInt _ x s e hw1 =>
        simp only [readProgram, mkW] at h
        cases e1 : readAll (typedOf ps.node.parameters) with
        | error w => rw [e1] at h; simp at h
        | ok r1 =>
          obtain ⟨l1, qs⟩ := r1
          rw [e1] at h
          cases e2 : readAll (fieldTypedOf fs) with
          | error w => simp [e2] at h
          | ok r2 =>
            obtain ⟨l2, gs⟩ := r2
            simp only [e2] at h
            cases e3 : readTransitions (transitionsOf cs) with
            | error w => simp [e3] at h
            | ok ts =>
              simp only [e3, Except.ok.injEq] at h
              subst h
              obtain ⟨k, hk, hk'⟩ := says_typeName f1
              have := ProgramSays.mk (HeadSays.mk (ver := x) d2.is d3.is hk' (says_params f2 e1) f3.is)
                (says_fields _ _ _ _ f4 e2) (says_components _ _ _ f5 e3)
              rw [hw, hw1, hw4]
              simpa [hk, mkW] using this

end Verif
