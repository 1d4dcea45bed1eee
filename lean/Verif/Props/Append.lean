import Verif.Props.Comments
import Verif.Props.RoundTrip
import Verif.Props.Reprint
import Verif.Proofs.EmitEvent
/-
C47: appending components to a document that is already a program.
-/
namespace Verif

theorem Derives.starAppend {n : NT} {w' : List STok} {vs' : List (Val n)}
    (d' : Derives (.star n) w' vs') : ∀ (vs : List (Val n)) (w : List STok), Derives (.star n) w vs →
    Derives (.star n) (w ++ w') (vs ++ vs')
  | [], w, d => by cases d; exact d'
  | v :: vs, w, d => by
    cases d with
    | starCons d1 d2 =>
      rw [List.append_assoc]
      exact .starCons d1 (Derives.starAppend d' vs _ d2)

/-- Components after a program. -/
theorem Derives.programAppend {w w' : List STok} {p : NodeProgram}
    {vs : List (W NodeComponentDefinition)} (d : Derives .program w p)
    (d' : Derives (.star .compDef) w' vs) :
    ∃ q, Derives .program (w ++ w') q ∧
      q.contractDefinition.node.contractName = p.contractDefinition.node.contractName ∧
      q.contractDefinition.node.parameters = p.contractDefinition.node.parameters ∧
      q.contractDefinition.node.fields = p.contractDefinition.node.fields ∧
      q.contractDefinition.node.components = p.contractDefinition.node.components ++ vs := by
  cases d with
  | @program _ _ _ _ _ _ _ _ _ s0 e0 hw d1 d2 d3 d4 =>
    cases d4 with
    | @contractDef _ _ _ _ _ _ _ _ _ _ _ s1 e1 hw4 f1 f2 f3 f4 f5 =>
      subst hw hw4
      have f6 := Derives.contractDef (s1 := s1) (e1 := e1) rfl f1 f2 f3 f4 (Derives.starAppend d' _ _ f5)
      refine ⟨_, .program (s1 := s0) (e1 := e0) ?_ d1 d2 d3 f6, rfl, rfl, rfl, rfl⟩
      simp only [List.cons_append, List.append_assoc]

theorem transitionsOf_append (a b : List (W NodeComponentDefinition)) :
    transitionsOf (a ++ b) = transitionsOf a ++ transitionsOf b := by
  simp [transitionsOf]

/-- the result with transitions added -/
def ParseResult.addTransitions (ts : List Transition) : ParseResult → ParseResult
  | .ok c => .ok { c with transitions := c.transitions ++ ts }
  | r => r

theorem emit_append (dbg : StackObj → Str) {p q : NodeProgram} {vs : List (W NodeComponentDefinition)}
    {ts : List Transition}
    (h1 : q.contractDefinition.node.contractName = p.contractDefinition.node.contractName)
    (h2 : q.contractDefinition.node.parameters = p.contractDefinition.node.parameters)
    (h3 : q.contractDefinition.node.fields = p.contractDefinition.node.fields)
    (h4 : q.contractDefinition.node.components = p.contractDefinition.node.components ++ vs)
    (ht : allSome readTransition (transitionsOf vs) = some ts) :
    emitProgram dbg q = match (generalizing := false) emitProgram dbg p with
      | .ok c => .ok { c with transitions := c.transitions ++ ts }
      | .err e => .err e
      | .panic => .panic := by
  have hr := evTranssT_read dbg (transitionsOf vs)
  rw [readTransitions_strict _ _ ht] at hr
  simp only at hr
  rw [emitProgram_ev, emitProgram_ev, evContract_T, evContract_T, h1, h2, h3, h4, transitionsOf_append]
  simp only [evIface, evTranssT_append, ← M.bind_assoc]
  rw [M.bind]
  cases M.bind _ _ SrState.init with
  | mk s r =>
    cases r with
    | ok u => simp only [hr]
    | err e => rfl
    | panic => rfl

/-- The tokens of a document that ends in non-empty layout, followed by more text. -/
theorem lex_append (U : CharClass) {pre lay more : Str} {ks w : List Token} (hb : Boundary U pre ks lay)
    (hl : Layout lay) (hn : lay ≠ []) (hq : ('"' ∈ more → '"' ∈ lay) ∨ ∀ t ∈ ks, t.steady)
    (hm : lexToks U more = some w) :
    lexToks U (pre ++ lay) = some ks ∧ lexToks U (pre ++ (lay ++ more)) = some (ks ++ w) := by
  have h1 := hb.reached
  have hbr : Break lay := by simpa using hl.break hn []
  have h2 := h1.tail hn (hl.break hn more) rfl pre rfl (.inl hbr)
    (hq.imp (fun h => by simp only [List.mem_append]; exact ⟨.inl, fun x => x.elim id h⟩) id)
  have e := (sameLex_layout U hl more).2
  have e' := (sameLex_layout U hl []).2
  rw [List.append_nil] at e'
  constructor
  · rw [h1.lexToks, e']
    have : lexToks U [] = some [] := rfl
    rw [this]; simp
  · rw [h2.lexToks, e, hm]; rfl

theorem lexDoc_of_toks {U : CharClass} {d : Str} {w : List Token} (h : lexToks U d = some w) :
    ∃ sts, lexDoc U d = some sts ∧ sts.map (·.tok) = w := by
  unfold lexToks at h
  simpa using h

/-- C47: appending components.  The document `pre ++ lay` is a program (its tokens are `ks`; it ends in some
layout `lay`, a newline for example); `more` is a text of procedures and transitions, the transitions
declaring `ts`.  Then appending `more` adds exactly the transitions `ts` to the contract, and changes
nothing if the document was already an error or a panic.  (A quote in `more` needs the condition of C42.) -/
theorem C47_append (env : Env) (pre lay more : Str) (ks w : List Token) (p : NodeProgram)
    (ts : List Transition) (hb : Boundary env.chars pre ks lay) (hl : Layout lay) (hn : lay ≠ [])
    (hq : ('"' ∈ more → '"' ∈ lay) ∨ ∀ t ∈ ks, t.steady)
    (hp : ∃ sts, lexDoc env.chars (pre ++ lay) = some sts ∧ Derives .program sts p)
    (hs : SpellsComponents ts w) (hw : ∀ t ∈ ts, fieldsWritable t.params) (hr : Rendering w more) :
    fromStr env (pre ++ (lay ++ more)) = (fromStr env (pre ++ lay)).addTransitions ts := by
  obtain ⟨ms, hm, em⟩ := C10_lex_rendering env.chars w more hr
  have hmt : lexToks env.chars more = some w := by simp [lexToks, hm, em]
  obtain ⟨-, h2⟩ := lex_append env.chars hb hl hn hq hmt
  obtain ⟨sts, h1, d⟩ := hp
  have hks : sts.map (·.tok) = ks := by
    obtain ⟨h1', -⟩ := lex_append env.chars hb hl hn hq hmt
    simpa [lexToks, h1] using h1'
  obtain ⟨sts', h2, e2⟩ := lexDoc_of_toks h2
  obtain ⟨vs, dv, et⟩ := reads_components hs hw
  obtain ⟨q, dq, q1, q2, q3, q4⟩ := d.programAppend dv
  have hbare : bare sts' = bare (sts ++ lift w) := by
    rw [bare_append, bare_lift]
    exact e2.trans (by rw [← hks]; rfl)
  rcases C18_parse sts' (sts ++ lift w) hbare with ⟨-, h⟩ | ⟨q', q'', hq', hq'', e'⟩
  · rw [C16_complete _ _ dq] at h; simp at h
  · rw [C16_complete _ _ dq, Option.some.injEq] at hq''
    subst hq''
    rw [fromStr_parsed h2 hq', C26_positions env.dbg q' q e', fromStr_parsed h1 (C16_complete _ _ d),
      emit_append env.dbg q1 q2 q3 q4 et]
    cases emitProgram env.dbg p <;> rfl

/-- C47: in particular, of a document with a contract. -/
theorem C47_append_ok (env : Env) (pre lay more : Str) (ks w : List Token) (c : Contract)
    (ts : List Transition) (hb : Boundary env.chars pre ks lay) (hl : Layout lay) (hn : lay ≠ [])
    (hq : ('"' ∈ more → '"' ∈ lay) ∨ ∀ t ∈ ks, t.steady) (hc : fromStr env (pre ++ lay) = .ok c)
    (hs : SpellsComponents ts w) (hw : ∀ t ∈ ts, fieldsWritable t.params) (hr : Rendering w more) :
    fromStr env (pre ++ (lay ++ more)) = .ok { c with transitions := c.transitions ++ ts } := by
  obtain ⟨sts, p, h1, h2, -⟩ := fromStr_ok_iff.mp hc
  rw [C47_append env pre lay more ks w p ts hb hl hn hq ⟨sts, h1, C15_sound _ _ h2⟩ hs hw hr, hc]
  rfl

/-- C47: appending procedures changes nothing. -/
theorem C47_append_procedure (env : Env) (pre lay more : Str) (ks w : List Token) (p : NodeProgram)
    (hb : Boundary env.chars pre ks lay) (hl : Layout lay) (hn : lay ≠ [])
    (hq : ('"' ∈ more → '"' ∈ lay) ∨ ∀ t ∈ ks, t.steady)
    (hp : ∃ sts, lexDoc env.chars (pre ++ lay) = some sts ∧ Derives .program sts p)
    (hs : Is .procDef w) (hr : Rendering w more) :
    fromStr env (pre ++ (lay ++ more)) = fromStr env (pre ++ lay) := by
  have h := C47_append env pre lay more ks w p [] hb hl hn hq hp
    (by simpa using SpellsComponents.procedure [] w [] hs .nil) (by simp) hr
  rw [h]
  cases fromStr env (pre ++ lay) <;> simp [ParseResult.addTransitions]

theorem SpellsComponents.append {ts us : List Transition} {w v : List Token} (h : SpellsComponents ts w)
    (h' : SpellsComponents us v) : SpellsComponents (ts ++ us) (w ++ v) := by
  induction h with
  | nil => exact h'
  | procedure ts w ws hp _ ih => rw [List.append_assoc]; exact .procedure _ _ _ hp ih
  | transition t ts n ps body ws hn hp hb _ ih =>
    have := SpellsComponents.transition t _ n ps body _ hn hp hb ih
    simpa using this

/-- C47: inserting components `mid` between others: the new transitions appear at the corresponding place, all
others stay as they are.  Read from right to left: removing components. -/
theorem C47_insert (env : Env) (pre lay mid post : Str) (ks w v : List Token) (p : NodeProgram)
    (ts us : List Transition) (hb : Boundary env.chars pre ks lay) (hl : Layout lay) (hn : lay ≠ [])
    (hq : ('"' ∈ mid ++ post → '"' ∈ lay) ∨ ∀ t ∈ ks, t.steady)
    (hp : ∃ sts, lexDoc env.chars (pre ++ lay) = some sts ∧ Derives .program sts p)
    (hs : SpellsComponents ts w) (hs' : SpellsComponents us v)
    (hw : ∀ t ∈ ts ++ us, fieldsWritable t.params) (hr : Rendering v post) (hr' : Rendering (w ++ v) (mid ++ post)) :
    (∀ c, fromStr env (pre ++ (lay ++ post)) = .ok c → ∃ before,
      c.transitions = before ++ us ∧
      fromStr env (pre ++ (lay ++ (mid ++ post))) = .ok { c with transitions := before ++ ts ++ us }) ∧
    ((∀ c, fromStr env (pre ++ (lay ++ post)) ≠ .ok c) →
      fromStr env (pre ++ (lay ++ (mid ++ post))) = fromStr env (pre ++ (lay ++ post))) := by
  have h1 := C47_append env pre lay post ks v p us hb hl hn
    (hq.imp (fun h hm => h (by simp only [List.mem_append]; exact .inr hm)) id) hp hs'
    (fun t ht => hw t (by simp [ht])) hr
  have h2 := C47_append env pre lay (mid ++ post) ks (w ++ v) p (ts ++ us) hb hl hn hq hp (hs.append hs') hw hr'
  rw [h1, h2]
  cases fromStr env (pre ++ lay) with
  | ok c0 =>
    refine ⟨fun c hc => ?_, fun h => absurd rfl (h _)⟩
    simp only [ParseResult.addTransitions, ParseResult.ok.injEq] at hc
    subst hc
    exact ⟨c0.transitions, rfl, by simp [ParseResult.addTransitions]⟩
  | err e => exact ⟨fun c hc => by simp [ParseResult.addTransitions] at hc, fun _ => rfl⟩
  | panic => exact ⟨fun c hc => by simp [ParseResult.addTransitions] at hc, fun _ => rfl⟩

/-- C47: exchanging two groups of components exchanges their transitions, and nothing else. -/
theorem C47_exchange (env : Env) (pre lay one two : Str) (ks w v : List Token) (p : NodeProgram)
    (ts us : List Transition) (hb : Boundary env.chars pre ks lay) (hl : Layout lay) (hn : lay ≠ [])
    (hq : ('"' ∈ one ++ two → '"' ∈ lay) ∨ ∀ t ∈ ks, t.steady)
    (hp : ∃ sts, lexDoc env.chars (pre ++ lay) = some sts ∧ Derives .program sts p)
    (hs : SpellsComponents ts w) (hs' : SpellsComponents us v)
    (hw : ∀ t ∈ ts ++ us, fieldsWritable t.params) (hr : Rendering (w ++ v) (one ++ two))
    (hr' : Rendering (v ++ w) (two ++ one)) (c : Contract) (hc : fromStr env (pre ++ (lay ++ (one ++ two))) = .ok c) :
    ∃ before, c.transitions = before ++ (ts ++ us) ∧
      fromStr env (pre ++ (lay ++ (two ++ one))) = .ok { c with transitions := before ++ (us ++ ts) } := by
  have h1 := C47_append env pre lay (one ++ two) ks (w ++ v) p (ts ++ us) hb hl hn hq hp (hs.append hs') hw hr
  have h2 := C47_append env pre lay (two ++ one) ks (v ++ w) p (us ++ ts) hb hl hn
    (hq.imp (fun h hm => h (by simp only [List.mem_append] at hm ⊢; exact hm.symm)) id) hp (hs'.append hs)
    (fun t ht => hw t (by simp only [List.mem_append] at ht ⊢; exact ht.symm)) hr'
  rw [h1] at hc
  rw [h2]
  cases hf : fromStr env (pre ++ lay) with
  | ok c0 =>
    rw [hf] at hc
    simp only [ParseResult.addTransitions, ParseResult.ok.injEq] at hc
    subst hc
    exact ⟨c0.transitions, rfl, by simp [ParseResult.addTransitions]⟩
  | err e => rw [hf] at hc; simp [ParseResult.addTransitions] at hc
  | panic => rw [hf] at hc; simp [ParseResult.addTransitions] at hc

/-- `k` calls of the lexer, to check a boundary by computation -/
def callsN (U : CharClass) : Nat → LexState → Option (List Token × LexState)
  | 0, σ => some ([], σ)
  | k + 1, σ =>
    match lexNext U σ with
    | .item t σ' => (callsN U k σ').map fun r => (t.tok :: r.1, r.2)
    | _ => none

theorem callsN_calls (U : CharClass) : ∀ (k : Nat) (σ σ' : LexState) (ts : List Token),
    callsN U k σ = some (ts, σ') → Calls U σ ts σ'
  | 0, σ, σ', ts, h => by
    simp only [callsN, Option.some.injEq, Prod.mk.injEq] at h
    obtain ⟨rfl, rfl⟩ := h
    exact .nil _
  | k + 1, σ, σ', ts, h => by
    rw [callsN] at h
    split at h
    · rename_i t σ1 h1
      simp only [Option.map_eq_some_iff, Prod.mk.injEq] at h
      obtain ⟨r, hr, rfl, rfl⟩ := h
      exact .cons h1 (callsN_calls U k σ1 r.2 r.1 hr)
    · simp at h

theorem boundary_of_callsN {U : CharClass} {pre post : Str} (k : Nat)
    (h : ((callsN U k (.init (pre ++ post))).map fun r => r.2.rest) = some post) :
    ∃ ts, Boundary U pre ts post := by
  simp only [Option.map_eq_some_iff] at h
  obtain ⟨⟨ts, σ⟩, h, e⟩ := h
  exact ⟨ts, σ, callsN_calls U k _ _ _ h, e⟩

/-- A contract that already has a transition, with a comment and spaces at its end. -/
def appPre : Str := str! "scilla_version 0 contract C () transition T (a : Bool) end"
def appLay : Str := str! " (* b *) "
/-- what is appended to it: a procedure and a transition -/
def appToks : List Token :=
  [.procedure, .identifier (str! "q"), .openParen, .closeParen, .accept, .end_,
   .transition, .customIdentifier (str! "S"), .openParen, .identifier (str! "x"), .colon,
    .customIdentifier (str! "Uint32"), .closeParen, .end_]

theorem appPre_fromStr : fromStr demoEnv (appPre ++ appLay) =
    .ok ⟨str! "C", [], [], [⟨str! "T", [⟨str! "a", .bool⟩]⟩]⟩ := by
  have h1 : (lexDoc demoU (appPre ++ appLay)).isSome = true := by decide +kernel
  obtain ⟨toks, h1⟩ := Option.isSome_iff_exists.mp h1
  have h2 : ((lexDoc demoU (appPre ++ appLay)).bind parseProgram).isSome = true := by decide +kernel
  rw [h1] at h2
  obtain ⟨p, h2⟩ := Option.isSome_iff_exists.mp h2
  have h3 : ((lexDoc demoU (appPre ++ appLay)).bind parseProgram).map (emitProgram fun _ => []) =
    some (.ok ⟨str! "C", [], [], [⟨str! "T", [⟨str! "a", .bool⟩]⟩]⟩) := by decide +kernel
  rw [h1] at h3
  simp only [Option.bind_some] at h2 h3
  rw [h2] at h3
  exact fromStr_ok_iff.mpr ⟨toks, p, h1, h2, by simpa [demoEnv] using h3⟩

theorem appToks_printable : AllPrintable appToks := by
  have h1 : (lexDoc demoU (spaced appToks)).map (fun l => l.map (·.tok)) = some appToks := by decide +kernel
  obtain ⟨toks, h2, h3⟩ := Option.map_eq_some_iff.mp h1
  intro t ht
  rw [← h3] at ht
  obtain ⟨u, hu, rfl⟩ := List.mem_map.mp ht
  refine lexed_printable demoU _ (by unfold Ascii; decide +kernel) toks h2 u hu ⟨fun e => ?_, fun s e => ?_⟩
  all_goals
    have : u.tok ∈ appToks := h3 ▸ List.mem_map_of_mem hu
    rw [e] at this
    simp [appToks] at this

/-- All premises of `C47_append_ok` hold there. -/
example : ∃ ks, Boundary demoU appPre ks appLay ∧ Layout appLay ∧ appLay ≠ [] ∧
    (('"' ∈ spaced appToks → '"' ∈ appLay) ∨ ∀ t ∈ ks, t.steady) ∧
    SpellsComponents [⟨str! "S", [⟨str! "x", .uint32⟩]⟩] appToks ∧
    (∀ t ∈ [(⟨str! "S", [⟨str! "x", .uint32⟩]⟩ : Transition)], fieldsWritable t.params) ∧
    Rendering appToks (spaced appToks) := by
  obtain ⟨ks, hb⟩ := boundary_of_callsN (U := demoU) (pre := appPre) (post := appLay) 14
    (by decide +kernel)
  refine ⟨ks, hb, ?_, by decide, .inl (by decide), ?_, ?_, ?_⟩
  · exact .white _ _ (.inl rfl) (.comment (str! " b ") (str! " ") (by unfold NoClose; decide)
      (.white _ _ (.inl rfl) .nil))
  · have h1 : (parseAs .procDef (lift (appToks.take 6))).isSome = true := by decide +kernel
    obtain ⟨v, h1⟩ := Option.isSome_iff_exists.mp h1
    have h2 : (parseAs .compBody (lift [.end_])).isSome = true := by decide +kernel
    obtain ⟨u, h2⟩ := Option.isSome_iff_exists.mp h2
    exact .procedure _ (appToks.take 6) _ ⟨v, (C44_exact _ rfl _ _).mp h1⟩
      (.transition ⟨str! "S", [⟨str! "x", .uint32⟩]⟩ [] (.customIdentifier (str! "S")) _ [.end_] [] (.type _ _ (.upper _))
        (.some _ [] _ [] (.mk _ _ _ (.plain .uint32)) .nil) ⟨u, (C44_exact _ rfl _ _).mp h2⟩ .nil)
  · simp only [List.mem_singleton, forall_eq, fieldsWritable, Ty.Writable, and_true]
    exact appToks_printable _ (by decide)
  · exact spaced_rendering _ appToks_printable

/-- `C47_insert` applies: between the transition of `appPre` and a new transition, a procedure and that transition
again are inserted. -/
example : ∃ c, fromStr demoEnv (appPre ++ (appLay ++ spaced (appToks.drop 6))) = .ok c ∧
    fromStr demoEnv (appPre ++ (appLay ++ (spaced appToks ++ spaced (appToks.drop 6)))) =
      .ok { c with transitions := [⟨str! "T", [⟨str! "a", .bool⟩]⟩, ⟨str! "S", [⟨str! "x", .uint32⟩]⟩,
        ⟨str! "S", [⟨str! "x", .uint32⟩]⟩] } := by
  have hc : fromStr demoEnv (appPre ++ (appLay ++ spaced (appToks.drop 6))) =
    .ok ⟨str! "C", [], [], [⟨str! "T", [⟨str! "a", .bool⟩]⟩, ⟨str! "S", [⟨str! "x", .uint32⟩]⟩]⟩ := by decide +kernel
  refine ⟨_, hc, ?_⟩
  obtain ⟨ks, hb⟩ := boundary_of_callsN (U := demoU) (pre := appPre) (post := appLay) 14 (by decide +kernel)
  obtain ⟨sts, p, h1, h2, -⟩ := fromStr_ok_iff.mp appPre_fromStr
  have h3 : (parseAs .compBody (lift [.end_])).isSome = true := by decide +kernel
  obtain ⟨u, h3⟩ := Option.isSome_iff_exists.mp h3
  have h4 : (parseAs .procDef (lift (appToks.take 6))).isSome = true := by decide +kernel
  obtain ⟨v, h4⟩ := Option.isSome_iff_exists.mp h4
  have s1 : SpellsComponents [⟨str! "S", [⟨str! "x", .uint32⟩]⟩] (appToks.drop 6) :=
    .transition ⟨str! "S", [⟨str! "x", .uint32⟩]⟩ [] (.customIdentifier (str! "S")) _ [.end_] [] (.type _ _ (.upper _))
      (.some _ [] _ [] (.mk _ _ _ (.plain .uint32)) .nil) ⟨u, (C44_exact _ rfl _ _).mp h3⟩ .nil
  have s2 : SpellsComponents [⟨str! "S", [⟨str! "x", .uint32⟩]⟩] appToks :=
    .procedure _ (appToks.take 6) _ ⟨v, (C44_exact _ rfl _ _).mp h4⟩ s1
  have pr : ∀ t ∈ appToks.drop 6, Printable t := fun t ht => appToks_printable t (List.drop_subset _ _ ht)
  have r : Rendering (appToks ++ appToks.drop 6) (spaced appToks ++ spaced (appToks.drop 6)) := by
    have e : spaced appToks ++ spaced (appToks.drop 6) = spaced (appToks ++ appToks.drop 6) := by decide +kernel
    rw [e]
    refine spaced_rendering _ fun t ht => ?_
    rcases List.mem_append.1 ht with h | h
    · exact appToks_printable t h
    · exact pr t h
  obtain ⟨before, e1, e2⟩ := (C47_insert demoEnv appPre appLay (spaced appToks) (spaced (appToks.drop 6)) ks appToks
    (appToks.drop 6) p _ _ hb
    (.white _ _ (.inl rfl) (.comment (str! " b ") (str! " ") (by unfold NoClose; decide) (.white _ _ (.inl rfl) .nil)))
    (by decide) (.inl (by decide +kernel)) ⟨sts, h1, C15_sound _ _ h2⟩ s2 s1
    (by
      intro t ht
      simp only [List.cons_append, List.nil_append, List.mem_cons, List.not_mem_nil, or_false, or_self] at ht
      subst ht
      simp only [fieldsWritable, Ty.Writable, and_true]
      exact appToks_printable _ (by decide))
    (spaced_rendering _ pr) r).1 _ hc
  rw [e2]
  have : before = [⟨str! "T", [⟨str! "a", .bool⟩]⟩] := by
    have : [(⟨str! "T", [⟨str! "a", .bool⟩]⟩ : Transition)] ++ [⟨str! "S", [⟨str! "x", .uint32⟩]⟩] =
      before ++ [⟨str! "S", [⟨str! "x", .uint32⟩]⟩] := e1
    exact (List.append_cancel_right this).symm
  subst this
  rfl

end Verif
