import Verif.Proofs.EditSays
import Verif.Props.Meaning
import Verif.Props.Parser2
/-
C78: editing the interface of a program.  The places are found by keywords: `transition`, `contract` (with a name
after it), `field` (not directly after `contract` or `,`, which announce fields of address types).
-/
namespace Verif

/-- the text before a place does not end in `contract` or `,` -/
def NotInAddress (a : List Token) : Prop := ∀ t, a.getLast? = some t → t ≠ .contract ∧ t ≠ .comma

/-! ### On tokens -/

/-- the transition at a keyword `transition` -/
theorem ProgramSays.editTransition {c : Contract} {a b ps ps' : List Token} {n n' : Token} {s' : Str} {fs' : List Field}
    (h : ProgramSays (a ++ .transition :: n :: (ps ++ b)) c) (hp : Is .compParams ps) (hn' : NameTok s' n')
    (hp' : ParamsSay ps' [] fs') :
    ∃ before s fs after, c.transitions = before ++ ⟨s, fs⟩ :: after ∧ before.length = a.count .transition ∧
      NameTok s n ∧ ParamsSay ps [] fs ∧
      ProgramSays (a ++ .transition :: n' :: (ps' ++ b)) { c with transitions := before ++ ⟨s', fs'⟩ :: after } := by
  generalize e : a ++ .transition :: n :: (ps ++ b) = w at h
  cases h with
  | @mk head fields comps name qs fs ls ts hh hf hc =>
    have hfree : Token.transition ∉ head ++ fields := by
      simp [hh.noKeyword.1, hf.is.noTransition rfl]
    obtain ⟨a', rfl, e'⟩ := split_after (u := head ++ fields) (v := comps) hfree (by simpa using e.symm)
    obtain ⟨t1, s, gs, t2, h1, h2, h3, h4, h5⟩ := hc.split hp e'
    refine ⟨t1, s, gs, t2, h1, ?_, h3, h4, ?_⟩
    · rw [List.count_append, List.count_eq_zero.2 hfree, h2, Nat.zero_add]
    · have := ProgramSays.mk hh hf (h5 _ _ _ _ hn' hp')
      simpa using this

/-- the names of fields -/
theorem fieldNames_says {w : List Token} {c : Contract} (h : ProgramSays w c) :
    fieldNames none w = c.fields.map fun f => .identifier f.name := by
  obtain ⟨p, d, e⟩ := h.reads
  have h1 := C21_fields _ _ (C16_complete _ _ d)
  rw [bare_lift'] at h1
  have h2 := C29_names (fun _ => []) p c (by have := C24_verdict (fun _ => []) p; rw [e] at this; exact this)
  rw [h1]
  have := congrArg (List.map Token.identifier) h2.2.2.1
  simpa [fieldTypedOf, Function.comp_def] using this.symm

/-- the fields before and after a keyword `field` -/
theorem ProgramSays.cutFields {c : Contract} {a b : List Token} (h : ProgramSays (a ++ .field :: b) c) (ha : NotInAddress a) :
    ∃ head a' l1 before r l2 after comps, a = head ++ a' ∧ HeadSays head c.name c.initParams ∧ FieldsSay a' l1 before ∧
      .field :: b = r ++ comps ∧ FieldsSay r l2 after ∧ after ≠ [] ∧ ComponentsSay comps c.transitions ∧
      c.fields = before ++ after ∧ fieldNames none a = before.map fun f => .identifier f.name := by
  generalize e : a ++ .field :: b = w at h
  cases h with
  | @mk head fields comps name qs fs ls ts hh hf hc =>
    obtain ⟨a', rfl, e'⟩ := split_tame hh.fieldTame ha e.symm
    obtain ⟨l1, f1, r, l2, f2, h1, h2, h3, h4, h5⟩ := hf.split (hc.is.fieldTame rfl) (FreeEnd.of_append ha) e'
    refine ⟨head, a', l1, f1, r, l2, f2, comps, rfl, hh, h1, h2, h3, h4, hc, h5, ?_⟩
    have := fieldNames_says (ProgramSays.mk hh h1 .nil)
    simpa using this

/-- the field at a keyword `field` -/
theorem ProgramSays.editField {c : Contract} {a b w w' : List Token} {x x' : Str} {l' : List Str} {t' : Ty}
    (h : ProgramSays (a ++ .field :: .identifier x :: .colon :: (w ++ .equals :: b)) c) (ha : NotInAddress a)
    (hw : Is .scillaType w) (hw' : Says .alone w' l' (some t')) :
    ∃ before l t after, c.fields = before ++ ⟨x, t⟩ :: after ∧ Says .alone w l (some t) ∧
      (fieldNames none a = before.map fun f => .identifier f.name) ∧
      ProgramSays (a ++ .field :: .identifier x' :: .colon :: (w' ++ .equals :: b))
        { c with fields := before ++ ⟨x', t'⟩ :: after } := by
  obtain ⟨head, a', l1, before, r, l2, after, comps, rfl, hh, h1, h2, h3, h4, hc, h5, h6⟩ := h.cutFields ha
  obtain ⟨l, t, gs, init, ws', ls', g1, rfl, g2, g3, rfl⟩ := h3.first hw h2.symm h4
  refine ⟨before, l, t, gs, h5, g1, h6, ?_⟩
  have := ProgramSays.mk hh (h1.append (.cons (.mk (x := x') hw') g2 g3)) hc
  simpa using this

/-- new fields before a keyword `field` -/
theorem ProgramSays.insertFields {c : Contract} {a mid b : List Token} {l : List Str} {fs : List Field}
    (h : ProgramSays (a ++ .field :: b) c) (ha : NotInAddress a) (hm : FieldsSay mid l fs) :
    ∃ before after, c.fields = before ++ after ∧ (fieldNames none a = before.map fun f => .identifier f.name) ∧
      ProgramSays (a ++ (mid ++ .field :: b)) { c with fields := before ++ (fs ++ after) } := by
  obtain ⟨head, a', l1, before, r, l2, after, comps, rfl, hh, h1, h2, h3, h4, hc, h5, h6⟩ := h.cutFields ha
  refine ⟨before, after, h5, h6, ?_⟩
  have := ProgramSays.mk hh (h1.append (hm.append h3)) hc
  rw [h2]
  simpa using this

theorem FieldsSay.unique {w : List Token} {l l' : List Str} {fs fs' : List Field} (h : FieldsSay w l fs)
    (h' : FieldsSay w l' fs') : fs = fs' := by
  have hd : HeadSays (.scillaVersion :: .number (str! "0") :: ([] ++ ([] ++ .contract :: .customIdentifier (str! "C") ::
      ([.openParen, .closeParen] ++ [])))) (str! "C") [] :=
    .mk ⟨_, .optNone⟩ ⟨_, .optNone⟩ (.upper _) (.comma .nil) ⟨_, .optNone⟩
  have := C77_unique _ _ _ (ProgramSays.mk hd h .nil) (ProgramSays.mk hd h' .nil)
  simpa using this

/-- fields before a keyword `field` are removed -/
theorem ProgramSays.removeFields {c : Contract} {a mid b : List Token} {l : List Str} {fs : List Field}
    (h : ProgramSays (a ++ (mid ++ .field :: b)) c) (ha : NotInAddress a) (ha' : NotInAddress (a ++ mid))
    (hm : FieldsSay mid l fs) :
    ∃ before after, c.fields = before ++ (fs ++ after) ∧ (fieldNames none a = before.map fun f => .identifier f.name) ∧
      ProgramSays (a ++ .field :: b) { c with fields := before ++ after } := by
  by_cases hn : mid = []
  · subst hn
    have e : fs = [] := by cases hm; rfl
    subst e
    obtain ⟨before, after, h1, h2, h3⟩ := ProgramSays.insertFields (c := c) (by simpa using h) ha hm
    refine ⟨before, after, h1, h2, ?_⟩
    simpa using h3
  · have e : ∃ u, mid = .field :: u := by
      cases hm with
      | nil => exact absurd rfl hn
      | cons => exact ⟨_, rfl⟩
    obtain ⟨u, hu⟩ := e
    generalize e : a ++ (mid ++ .field :: b) = w at h
    cases h with
    | @mk head fields comps name qs gs ls ts hh hf hc =>
      obtain ⟨a', rfl, e'⟩ := split_tame (b := u ++ .field :: b) hh.fieldTame ha (by rw [← e, hu]; simp)
      obtain ⟨l1, f1, -, -, -, h1, -, -, -, -⟩ := hf.split (hc.is.fieldTame rfl) (FreeEnd.of_append ha) e'
      obtain ⟨l2, f2, r, l3, f3, g1, g2, g3, g4, g5⟩ := hf.split (a := a' ++ mid) (b := b) (hc.is.fieldTame rfl)
        (FreeEnd.of_append (u := head) (by rw [← List.append_assoc]; exact ha')) (by rw [e', hu]; simp)
      have e2 := (h1.append hm).unique g1
      subst e2
      refine ⟨f1, f3, by simpa using g5, ?_, ?_⟩
      · have := fieldNames_says (ProgramSays.mk hh h1 .nil)
        simpa using this
      · have := ProgramSays.mk hh (h1.append g3) hc
        rw [g2]
        simpa using this

/-- new fields after the last one -/
theorem ProgramSays.appendFields {c : Contract} {a mid b : List Token} {l : List Str} {fs : List Field}
    (h : ProgramSays (a ++ b) c) (ha : Token.transition ∉ a ∧ Token.procedure ∉ a)
    (hb : b = [] ∨ ∃ k u, b = k :: u ∧ (k = .transition ∨ k = .procedure)) (hm : FieldsSay mid l fs) :
    ProgramSays (a ++ (mid ++ b)) { c with fields := c.fields ++ fs } := by
  generalize e : a ++ b = w at h
  cases h with
  | @mk head fields comps name qs gs ls ts hh hf hc =>
    have hfree : Token.transition ∉ head ++ fields ∧ Token.procedure ∉ head ++ fields := by
      simp [hh.noKeyword.1, hh.noKeyword.2, hf.is.noTransition rfl, hf.is.noProcedure rfl]
    have key : ∀ {x y u v : List Token}, (Token.transition ∉ x ∧ Token.procedure ∉ x) →
        (v = [] ∨ ∃ k w, v = k :: w ∧ (k = .transition ∨ k = .procedure)) → ∀ z, x = u ++ z → v = z ++ y → z = [] := by
      intro x y u v hx hv z e1 e2
      cases z with
      | nil => rfl
      | cons k z =>
        rcases hv with rfl | ⟨k', w, rfl, hk⟩
        · simp at e2
        · simp only [List.cons_append, List.cons.injEq] at e2
          rw [← e2.1] at e1
          rcases hk with rfl | rfl
          · exact absurd (by rw [e1]; simp) hx.1
          · exact absurd (by rw [e1]; simp) hx.2
    have e' : a ++ b = (head ++ fields) ++ comps := by rw [e]; simp
    have : a = head ++ fields ∧ b = comps := by
      rw [List.append_eq_append_iff] at e'
      rcases e' with ⟨z, h1, h2⟩ | ⟨z, h1, h2⟩
      · have := key hfree hb z h1 h2
        subst this
        exact ⟨by simpa using h1.symm, by simpa using h2⟩
      · have := key ha hc.head z h1 h2
        subst this
        exact ⟨by simpa using h1, by simpa using h2.symm⟩
    obtain ⟨rfl, rfl⟩ := this
    have := ProgramSays.mk hh (hf.append hm) hc
    simpa using this

/-- the contract at the keyword `contract` -/
theorem ProgramSays.editContract {c : Contract} {a b ps ps' : List Token} {n n' : Token} {s' : Str} {l' : List Str}
    {fs' : List Field} (h : ProgramSays (a ++ .contract :: n :: (ps ++ b)) c) (hn : ∃ s, TypeNameTok s n)
    (hp : Is .compParams ps) (hn' : TypeNameTok s' n') (hp' : ParamsSay ps' l' fs') :
    TypeNameTok c.name n ∧ (∃ l, ParamsSay ps l c.initParams) ∧
      ProgramSays (a ++ .contract :: n' :: (ps' ++ b)) { c with name := s', initParams := fs' } := by
  generalize e : a ++ .contract :: n :: (ps ++ b) = w at h
  cases h with
  | @mk head fields comps name qs fs ls ts hh hf hc =>
    have hr : ContractTame (fields ++ comps) := (hf.is.contractTame rfl).append (hc.is.contractTame rfl)
    obtain ⟨l, con, h1, h2, rfl, h3⟩ := hh.split hr hn hp e.symm
    refine ⟨h1, ⟨l, h2⟩, ?_⟩
    have := ProgramSays.mk (h3 _ _ _ _ _ hn' hp') hf hc
    simpa using this

/-! ### On documents

`tokensIn U doc`: the tokens of a document, without positions, if lexing does not panic. -/

def tokensIn (U : CharClass) (doc : Str) : Option (List Token) := (lexDoc U doc).map fun ts => ts.map (·.tok)

theorem says_of_tokens (env : Env) (hU : env.chars.Apart) {doc : Str} {w : List Token} {c : Contract}
    (hd : tokensIn env.chars doc = some w) (ho : Ordinary w) (hc : fromStr env doc = .ok c) : ProgramSays w c := by
  obtain ⟨toks, hl, rfl⟩ := Option.map_eq_some_iff.1 hd
  exact (C77_exact env hU doc toks c hl ho).mp hc

theorem fromStr_of_says (env : Env) {doc : Str} {w : List Token} {c : Contract}
    (hd : tokensIn env.chars doc = some w) (h : ProgramSays w c) : fromStr env doc = .ok c := by
  obtain ⟨toks, hl, rfl⟩ := Option.map_eq_some_iff.1 hd
  exact C77_document env doc toks c hl h

/-- C78: if in an accepted document the name `n` and the parameter list `ps` after a keyword `transition` are replaced
by others, then the corresponding transition of the contract is replaced, and nothing else. -/
theorem C78_transition (env : Env) (hU : env.chars.Apart) (doc doc' : Str) (c : Contract) (a b ps ps' : List Token)
    (n n' : Token) (s' : Str) (fs' : List Field)
    (hd : tokensIn env.chars doc = some (a ++ .transition :: n :: (ps ++ b)))
    (hd' : tokensIn env.chars doc' = some (a ++ .transition :: n' :: (ps' ++ b)))
    (ho : Ordinary (a ++ .transition :: n :: (ps ++ b))) (hc : fromStr env doc = .ok c) (hp : Is .compParams ps)
    (hn' : NameTok s' n') (hp' : ParamsSay ps' [] fs') :
    ∃ before s fs after, c.transitions = before ++ ⟨s, fs⟩ :: after ∧ before.length = a.count .transition ∧
      NameTok s n ∧ ParamsSay ps [] fs ∧
      fromStr env doc' = .ok { c with transitions := before ++ ⟨s', fs'⟩ :: after } := by
  obtain ⟨before, s, fs, after, h1, h2, h3, h4, h5⟩ := (says_of_tokens env hU hd ho hc).editTransition hp hn' hp'
  exact ⟨before, s, fs, after, h1, h2, h3, h4, fromStr_of_says env hd' h5⟩

/-- C78: the same for the name and the parameters after the keyword `contract`. -/
theorem C78_contract (env : Env) (hU : env.chars.Apart) (doc doc' : Str) (c : Contract) (a b ps ps' : List Token)
    (n n' : Token) (s' : Str) (l' : List Str) (fs' : List Field)
    (hd : tokensIn env.chars doc = some (a ++ .contract :: n :: (ps ++ b)))
    (hd' : tokensIn env.chars doc' = some (a ++ .contract :: n' :: (ps' ++ b)))
    (ho : Ordinary (a ++ .contract :: n :: (ps ++ b))) (hc : fromStr env doc = .ok c) (hn : ∃ s, TypeNameTok s n)
    (hp : Is .compParams ps) (hn' : TypeNameTok s' n') (hp' : ParamsSay ps' l' fs') :
    TypeNameTok c.name n ∧ (∃ l, ParamsSay ps l c.initParams) ∧
      fromStr env doc' = .ok { c with name := s', initParams := fs' } := by
  obtain ⟨h1, h2, h3⟩ := (says_of_tokens env hU hd ho hc).editContract hn hp hn' hp'
  exact ⟨h1, h2, fromStr_of_says env hd' h3⟩

/-- C78: if in an accepted document the name `x` and the type `w` of a field are replaced by others, then the name and
the type of the corresponding field of the contract are replaced, and nothing else. -/
theorem C78_field (env : Env) (hU : env.chars.Apart) (doc doc' : Str) (c : Contract) (a b w w' : List Token) (x x' : Str)
    (l' : List Str) (t' : Ty)
    (hd : tokensIn env.chars doc = some (a ++ .field :: .identifier x :: .colon :: (w ++ .equals :: b)))
    (hd' : tokensIn env.chars doc' = some (a ++ .field :: .identifier x' :: .colon :: (w' ++ .equals :: b)))
    (ho : Ordinary (a ++ .field :: .identifier x :: .colon :: (w ++ .equals :: b))) (hc : fromStr env doc = .ok c)
    (ha : NotInAddress a) (hw : Is .scillaType w) (hw' : Says .alone w' l' (some t')) :
    ∃ before l t after, c.fields = before ++ ⟨x, t⟩ :: after ∧ Says .alone w l (some t) ∧
      (fieldNames none a = before.map fun f => .identifier f.name) ∧
      fromStr env doc' = .ok { c with fields := before ++ ⟨x', t'⟩ :: after } := by
  obtain ⟨before, l, t, after, h1, h2, h3, h4⟩ := (says_of_tokens env hU hd ho hc).editField (x' := x') ha hw hw'
  exact ⟨before, l, t, after, h1, h2, h3, fromStr_of_says env hd' h4⟩

/-- C78: fields inserted before a field appear at the corresponding place of the contract. -/
theorem C78_insert_fields (env : Env) (hU : env.chars.Apart) (doc doc' : Str) (c : Contract) (a mid b : List Token)
    (l : List Str) (fs : List Field)
    (hd : tokensIn env.chars doc = some (a ++ .field :: b))
    (hd' : tokensIn env.chars doc' = some (a ++ (mid ++ .field :: b)))
    (ho : Ordinary (a ++ .field :: b)) (hc : fromStr env doc = .ok c)
    (ha : NotInAddress a) (hm : FieldsSay mid l fs) :
    ∃ before after, c.fields = before ++ after ∧ (fieldNames none a = before.map fun f => .identifier f.name) ∧
      fromStr env doc' = .ok { c with fields := before ++ (fs ++ after) } := by
  obtain ⟨before, after, h1, h2, h3⟩ := (says_of_tokens env hU hd ho hc).insertFields ha hm
  exact ⟨before, after, h1, h2, fromStr_of_says env hd' h3⟩

/-- C78: fields removed before a field disappear from the contract, and nothing else changes. -/
theorem C78_remove_fields (env : Env) (hU : env.chars.Apart) (doc doc' : Str) (c : Contract) (a mid b : List Token)
    (l : List Str) (fs : List Field)
    (hd : tokensIn env.chars doc = some (a ++ (mid ++ .field :: b)))
    (hd' : tokensIn env.chars doc' = some (a ++ .field :: b))
    (ho : Ordinary (a ++ (mid ++ .field :: b))) (hc : fromStr env doc = .ok c)
    (ha : NotInAddress a) (ha' : NotInAddress (a ++ mid)) (hm : FieldsSay mid l fs) :
    ∃ before after, c.fields = before ++ (fs ++ after) ∧
      (fieldNames none a = before.map fun f => .identifier f.name) ∧
      fromStr env doc' = .ok { c with fields := before ++ after } := by
  obtain ⟨before, after, h1, h2, h3⟩ := (says_of_tokens env hU hd ho hc).removeFields ha ha' hm
  exact ⟨before, after, h1, h2, fromStr_of_says env hd' h3⟩

/-- C78: fields inserted before the first component (or at the end, if there are no components) are the last ones of
the contract. -/
theorem C78_append_fields (env : Env) (hU : env.chars.Apart) (doc doc' : Str) (c : Contract) (a mid b : List Token)
    (l : List Str) (fs : List Field)
    (hd : tokensIn env.chars doc = some (a ++ b)) (hd' : tokensIn env.chars doc' = some (a ++ (mid ++ b)))
    (ho : Ordinary (a ++ b)) (hc : fromStr env doc = .ok c) (ha : Token.transition ∉ a ∧ Token.procedure ∉ a)
    (hb : b = [] ∨ ∃ k u, b = k :: u ∧ (k = .transition ∨ k = .procedure)) (hm : FieldsSay mid l fs) :
    fromStr env doc' = .ok { c with fields := c.fields ++ fs } :=
  fromStr_of_says env hd' ((says_of_tokens env hU hd ho hc).appendFields ha hb hm)

/-! ### Witnesses

All hypotheses are met by the demonstration contract: its transition gets another name and other parameters, the
contract another name and no parameters, the field `m` another name and type, and a field is inserted before it, after
it, and removed again. -/

theorem is_of_parse {n : NT} {w : List Token} (hn : n.base = true) (h : (parseAs n (lift w)).isSome = true) : Is n w := by
  obtain ⟨v, hv⟩ := Option.isSome_iff_exists.1 h
  exact ⟨v, (C44_exact n hn _ _).mp hv⟩

abbrev demoWords : List Token := demoToks.map (·.tok)

theorem demo_tokens : tokensIn demoU demoDoc = some demoWords := by rw [tokensIn, demo_lexes]; rfl

theorem demo_ordinary : Ordinary demoWords := looksOrdinary_sound (by decide +kernel)

theorem demo_apart : demoEnv.chars.Apart := fun _ _ h => by simp [demoEnv, demoU] at h

theorem upper_alone (s : Str) (h : '+' ∉ s) : Says .alone [.customIdentifier s] [] (namedType s []) :=
  Says.apply (p := .alone) rfl (.word (.upper s h)) .noArgs

example : fromStr demoEnv (str! "scilla_version 0 library L let z = Uint32 0 contract C (o : ByStr20) with builtin lt z z => field m : Map ByStr20 (Option Uint128) = Emp ByStr20 (Option Uint128) procedure P() accept end transition go(x : Bool) x <- m[a]; match x with | Some y => m[a] := y; P | _ => end end") =
    .ok { demoContract with transitions := [⟨str! "go", [⟨str! "x", .bool⟩]⟩] } := by
  have hw : demoWords = demoWords.take 44 ++ .transition :: .customIdentifier (str! "T") ::
      ((demoWords.drop 46).take 21 ++ demoWords.drop 67) := by decide +kernel
  obtain ⟨before, s, fs, after, h1, h2, h3, h4, h5⟩ := C78_transition demoEnv demo_apart demoDoc _ demoContract
    (demoWords.take 44) (demoWords.drop 67) ((demoWords.drop 46).take 21)
    [.openParen, .identifier (str! "x"), .colon, .customIdentifier (str! "Bool"), .closeParen]
    (.customIdentifier (str! "T")) (.identifier (str! "go")) (str! "go") [⟨str! "x", .bool⟩]
    (by rw [← hw]; exact demo_tokens)
    (show tokensIn demoU (str! "scilla_version 0 library L let z = Uint32 0 contract C (o : ByStr20) with builtin lt z z => field m : Map ByStr20 (Option Uint128) = Emp ByStr20 (Option Uint128) procedure P() accept end transition go(x : Bool) x <- m[a]; match x with | Some y => m[a] := y; P | _ => end end") = _ by decide +kernel)
    (by rw [← hw]; exact demo_ordinary) demo_fromStr (is_of_parse rfl (by decide +kernel)) (.lower _)
    (.usual (.mk (upper_alone (str! "Bool") (by decide))) .nil)
  have h2 : before.length = 0 := by rw [h2]; decide +kernel
  obtain rfl := List.length_eq_zero_iff.1 h2
  have h6 : after = [] := by
    have := congrArg List.length h1
    simpa [demoContract] using this
  rw [h5, h6]; rfl

example : fromStr demoEnv (str! "scilla_version 0 library L let z = Uint32 0 contract D () with builtin lt z z => field m : Map ByStr20 (Option Uint128) = Emp ByStr20 (Option Uint128) procedure P() accept end transition T(a : List (Pair Int32 Bool), b : ByStr20 with contract field f : Uint32 end) x <- m[a]; match x with | Some y => m[a] := y; P | _ => end end") = .ok { demoContract with name := str! "D", initParams := [] } := by
  have hw : demoWords = demoWords.take 9 ++ .contract :: .customIdentifier (str! "C") ::
      ((demoWords.drop 11).take 5 ++ demoWords.drop 16) := by decide +kernel
  exact (C78_contract demoEnv demo_apart demoDoc _ demoContract
    (demoWords.take 9) (demoWords.drop 16) ((demoWords.drop 11).take 5) [.openParen, .closeParen]
    (.customIdentifier (str! "C")) (.customIdentifier (str! "D")) (str! "D") [] []
    (by rw [← hw]; exact demo_tokens)
    (show tokensIn demoU (str! "scilla_version 0 library L let z = Uint32 0 contract D () with builtin lt z z => field m : Map ByStr20 (Option Uint128) = Emp ByStr20 (Option Uint128) procedure P() accept end transition T(a : List (Pair Int32 Bool), b : ByStr20 with contract field f : Uint32 end) x <- m[a]; match x with | Some y => m[a] := y; P | _ => end end") = _ by decide +kernel)
    (by rw [← hw]; exact demo_ordinary) demo_fromStr ⟨_, .upper _⟩ (is_of_parse rfl (by decide +kernel)) (.upper _)
    (.comma .nil)).2.2

theorem demo_notInAddress : NotInAddress (demoWords.take 22) := by
  have : (demoWords.take 22).getLast? = some .doubleArrow := by decide +kernel
  intro t ht
  rw [this, Option.some.injEq] at ht
  subst ht
  simp

example : fromStr demoEnv (str! "scilla_version 0 library L let z = Uint32 0 contract C (o : ByStr20) with builtin lt z z => field n : List Int32 = Emp ByStr20 (Option Uint128) procedure P() accept end transition T(a : List (Pair Int32 Bool), b : ByStr20 with contract field f : Uint32 end) x <- m[a]; match x with | Some y => m[a] := y; P | _ => end end") = .ok { demoContract with fields := [⟨str! "n", .list .int32⟩] } := by
  have hw : demoWords = demoWords.take 22 ++ .field :: .identifier (str! "m") :: .colon ::
      ((demoWords.drop 25).take 6 ++ .equals :: demoWords.drop 32) := by decide +kernel
  obtain ⟨before, l, t, after, h1, -, h2, h3⟩ := C78_field demoEnv demo_apart demoDoc _ demoContract
    (demoWords.take 22) (demoWords.drop 32) ((demoWords.drop 25).take 6)
    [.customIdentifier (str! "List"), .customIdentifier (str! "Int32")] (str! "m") (str! "n") [] (.list .int32)
    (by rw [← hw]; exact demo_tokens)
    (show tokensIn demoU (str! "scilla_version 0 library L let z = Uint32 0 contract C (o : ByStr20) with builtin lt z z => field n : List Int32 = Emp ByStr20 (Option Uint128) procedure P() accept end transition T(a : List (Pair Int32 Bool), b : ByStr20 with contract field f : Uint32 end) x <- m[a]; match x with | Some y => m[a] := y; P | _ => end end") = _ by decide +kernel)
    (by rw [← hw]; exact demo_ordinary) demo_fromStr demo_notInAddress (is_of_parse rfl (by decide +kernel))
    (Says.apply (p := .alone) rfl (.word (.upper (str! "List") (by decide)))
      (.arg (.name rfl (.word (.upper (str! "Int32") (by decide)))) .noArgs))
  have h2 : before = [] := by
    have : fieldNames none (demoWords.take 22) = [] := by decide +kernel
    rw [this] at h2
    simpa using h2.symm
  subst h2
  have h6 : after = [] := by
    have := congrArg List.length h1
    simpa [demoContract] using this
  rw [h3, h6]; rfl

theorem demo_newField : FieldsSay [.field, .identifier (str! "k"), .colon, .customIdentifier (str! "Bool"), .equals,
    .identifier (str! "e")] [] [⟨str! "k", .bool⟩] :=
  FieldsSay.cons (w := [.identifier (str! "k"), .colon, .customIdentifier (str! "Bool")]) (init := [.identifier (str! "e")])
    (.mk (upper_alone (str! "Bool") (by decide))) (is_of_parse rfl (by decide +kernel)) .nil

theorem demo_inserted : fromStr demoEnv (str! "scilla_version 0 library L let z = Uint32 0 contract C (o : ByStr20) with builtin lt z z => field k : Bool = e field m : Map ByStr20 (Option Uint128) = Emp ByStr20 (Option Uint128) procedure P() accept end transition T(a : List (Pair Int32 Bool), b : ByStr20 with contract field f : Uint32 end) x <- m[a]; match x with | Some y => m[a] := y; P | _ => end end") =
    .ok { demoContract with fields := ⟨str! "k", .bool⟩ :: demoContract.fields } := by
  have hw : demoWords = demoWords.take 22 ++ .field :: demoWords.drop 23 := by decide +kernel
  obtain ⟨before, after, h1, h2, h3⟩ := C78_insert_fields demoEnv demo_apart demoDoc _ demoContract
    (demoWords.take 22) _ (demoWords.drop 23) [] _
    (by rw [← hw]; exact demo_tokens)
    (show tokensIn demoU (str! "scilla_version 0 library L let z = Uint32 0 contract C (o : ByStr20) with builtin lt z z => field k : Bool = e field m : Map ByStr20 (Option Uint128) = Emp ByStr20 (Option Uint128) procedure P() accept end transition T(a : List (Pair Int32 Bool), b : ByStr20 with contract field f : Uint32 end) x <- m[a]; match x with | Some y => m[a] := y; P | _ => end end") = _ by decide +kernel)
    (by rw [← hw]; exact demo_ordinary) demo_fromStr demo_notInAddress demo_newField
  have h2 : before = [] := by
    have : fieldNames none (demoWords.take 22) = [] := by decide +kernel
    rw [this] at h2
    simpa using h2.symm
  subst h2
  rw [h3, h1]; rfl

example : fromStr demoEnv demoDoc = .ok demoContract := by
  have hd : tokensIn demoU (str! "scilla_version 0 library L let z = Uint32 0 contract C (o : ByStr20) with builtin lt z z => field k : Bool = e field m : Map ByStr20 (Option Uint128) = Emp ByStr20 (Option Uint128) procedure P() accept end transition T(a : List (Pair Int32 Bool), b : ByStr20 with contract field f : Uint32 end) x <- m[a]; match x with | Some y => m[a] := y; P | _ => end end") = some (demoWords.take 22 ++
      ([.field, .identifier (str! "k"), .colon, .customIdentifier (str! "Bool"), .equals, .identifier (str! "e")] ++
        .field :: demoWords.drop 23)) := by decide +kernel
  have hw : demoWords = demoWords.take 22 ++ .field :: demoWords.drop 23 := by decide +kernel
  obtain ⟨before, after, h1, h2, h3⟩ := C78_remove_fields demoEnv demo_apart _ demoDoc _
    (demoWords.take 22) _ (demoWords.drop 23) [] _ hd (by rw [← hw]; exact demo_tokens)
    (looksOrdinary_sound (by decide +kernel)) demo_inserted demo_notInAddress
    (by intro t ht; rw [List.getLast?_append] at ht; simp at ht; subst ht; simp) demo_newField
  have h2 : before = [] := by
    have : fieldNames none (demoWords.take 22) = [] := by decide +kernel
    rw [this] at h2
    simpa using h2.symm
  subst h2
  have : after = demoContract.fields := by simpa using h1.symm
  rw [h3, this]; rfl

example : fromStr demoEnv (str! "scilla_version 0 library L let z = Uint32 0 contract C (o : ByStr20) with builtin lt z z => field m : Map ByStr20 (Option Uint128) = Emp ByStr20 (Option Uint128) field k : Bool = e procedure P() accept end transition T(a : List (Pair Int32 Bool), b : ByStr20 with contract field f : Uint32 end) x <- m[a]; match x with | Some y => m[a] := y; P | _ => end end") =
    .ok { demoContract with fields := demoContract.fields ++ [⟨str! "k", .bool⟩] } := by
  have hw : demoWords = demoWords.take 38 ++ demoWords.drop 38 := by decide +kernel
  exact C78_append_fields demoEnv demo_apart demoDoc _ demoContract (demoWords.take 38) _ (demoWords.drop 38) [] _
    (by rw [← hw]; exact demo_tokens)
    (show tokensIn demoU (str! "scilla_version 0 library L let z = Uint32 0 contract C (o : ByStr20) with builtin lt z z => field m : Map ByStr20 (Option Uint128) = Emp ByStr20 (Option Uint128) field k : Bool = e procedure P() accept end transition T(a : List (Pair Int32 Bool), b : ByStr20 with contract field f : Uint32 end) x <- m[a]; match x with | Some y => m[a] := y; P | _ => end end") = _ by decide +kernel)
    (by rw [← hw]; exact demo_ordinary) demo_fromStr (by decide +kernel)
    (.inr ⟨.procedure, (demoWords.drop 39), by decide +kernel, .inr rfl⟩) demo_newField

end Verif
