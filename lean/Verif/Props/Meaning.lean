import Verif.Proofs.MeaningOrdinary
import Verif.Props.Legal
import Verif.Props.Reprint
/-
C77: the interface of a program can be read off its tokens.  Spec/Meaning.lean says what the tokens of a program
declare.
-/
namespace Verif

theorem lift_wordsOf (w : List STok) : lift (wordsOf w) = w.map STok.strip := by simp [lift, wordsOf, STok.strip]

theorem bare_wordsOf (w : List STok) : bare w = bare (lift (w.map (·.tok))) := by simp [bare, lift]

/-- A list of tokens, wherever they stand in the text, is read as a type exactly if it says this type. -/
theorem C77_types (toks : List STok) (l : List Str) (o : Option Ty) :
    (∃ v : W NodeScillaType, parseAs .scillaType toks = some v ∧ readTypeW v = .clean l o) ↔
      Says .alone (toks.map (·.tok)) l o := by
  constructor
  · rintro ⟨v, hp, hv⟩
    exact ((C44_exact .scillaType rfl _ _).mp hp).says _ _ hv
  · intro h
    obtain ⟨v, d, e⟩ := h.reads
    have := C44_positions .scillaType rfl _ _ (bare_wordsOf toks)
    rw [(C44_exact .scillaType rfl _ _).mpr (.typeRem d)] at this
    cases hp : parseAs .scillaType toks with
    | none => simp [hp] at this
    | some u =>
      rw [hp, Option.map_some, Option.map_some, Option.some.injEq] at this
      refine ⟨u, rfl, ?_⟩
      have this : W.strip NodeScillaType.strip u = W.strip NodeScillaType.strip v := this
      rw [← readTypeW_strip, NodeScillaType.stripW_eq, this, ← NodeScillaType.stripW_eq, readTypeW_strip]
      exact e

/-- A list of tokens says at most one type. -/
theorem C77_types_unique (w : List Token) (l l' : List Str) (o o' : Option Ty) (h : Says .alone w l o)
    (h' : Says .alone w l' o') : l = l' ∧ o = o' := by
  have e : (lift w).map (·.tok) = w := by simp [lift, Function.comp_def]
  obtain ⟨v, hv, hr⟩ := (C77_types (lift w) l o).mpr (by rw [e]; exact h)
  obtain ⟨v', hv', hr'⟩ := (C77_types (lift w) l' o').mpr (by rw [e]; exact h')
  rw [hv, Option.some.injEq] at hv'
  subst hv'
  rw [hr, Reading.clean.injEq] at hr'
  exact hr'

theorem readAll_strip : ∀ ns : List NodeTypedIdentifier, readAll (ns.map NodeTypedIdentifier.strip) = readAll ns
  | [] => rfl
  | ⟨x, ⟨⟨t⟩, _, _⟩⟩ :: ns => by
    have := readTypeW_strip t
    rw [NodeScillaType.stripW_eq] at this
    simp only [List.map_cons, readAll, NodeTypedIdentifier.strip, NodeTypeAnnotation.strip, W.strip_node, this,
      readAll_strip ns, id]

theorem readTransitions_strip : ∀ ts : List NodeTransitionDefinition,
    readTransitions (ts.map NodeTransitionDefinition.strip) = readTransitions ts
  | [] => rfl
  | ⟨⟨n, _, _⟩, ⟨⟨ps⟩, _, _⟩, b⟩ :: ts => by
    simp only [List.map_cons, readTransitions, NodeTransitionDefinition.strip, W.strip,
      NodeComponentParameters.strip, componentName_strip, typedOf_strip, readAll_strip, readTransitions_strip ts]

theorem readProgram_strip (p : NodeProgram) : readProgram p.strip = readProgram p := by
  obtain ⟨v, i, l, ⟨⟨n, ⟨⟨ps⟩, _, _⟩, w, fs, cs⟩, _, _⟩⟩ := p
  simp only [readProgram, NodeProgram.strip, NodeContractDefinition.strip, W.strip, NodeComponentParameters.strip,
    typedOf_strip, fieldTypedOf_strip, transitionsOf_strip, display_strip, readAll_strip, readTransitions_strip]

/-- A list of tokens is a program with interface `c` exactly if it says `c`. -/
theorem C77_program (toks : List STok) (c : Contract) :
    (∃ p, Derives .program toks p ∧ readProgram p = .ok c) ↔ ProgramSays (toks.map (·.tok)) c := by
  constructor
  · rintro ⟨p, d, h⟩
    exact says_program d h
  · intro h
    obtain ⟨p, d, e⟩ := h.reads
    rcases C18_parse toks _ (bare_wordsOf toks) with ⟨-, h⟩ | ⟨q, p', hq, hp', e'⟩
    · rw [C16_complete _ _ d] at h; simp at h
    · rw [C16_complete _ _ d, Option.some.injEq] at hp'
      subst hp'
      exact ⟨q, C15_sound _ _ hq, by rw [← readProgram_strip, e', readProgram_strip, e]⟩

/-- A list of tokens says at most one interface. -/
theorem C77_unique (w : List Token) (c c' : Contract) (h : ProgramSays w c) (h' : ProgramSays w c') : c = c' := by
  have e : (lift w).map (·.tok) = w := by simp [lift, Function.comp_def]
  obtain ⟨p, d, hr⟩ := (C77_program (lift w) c).mpr (by rw [e]; exact h)
  obtain ⟨p', d', hr'⟩ := (C77_program (lift w) c').mpr (by rw [e]; exact h')
  rw [C17_unambiguous _ _ _ d d', hr', Except.ok.injEq] at hr
  exact hr.symm

/-- The interface the tokens of a document say is the one the library returns. -/
theorem C77_document (env : Env) (doc : Str) (toks : List STok) (c : Contract)
    (hl : lexDoc env.chars doc = some toks) (h : ProgramSays (toks.map (·.tok)) c) : fromStr env doc = .ok c := by
  obtain ⟨p, d, e⟩ := (C77_program toks c).mpr h
  have := C24_document env doc toks p hl d
  rw [e] at this
  exact this

theorem plusFree {t : Token} {s : Str} (h : t.NameOk) (e : t = .customIdentifier s ∨ t = .byStrWithSize s) : '+' ∉ s := by
  rcases e with rfl | rfl
  · exact typeText_noPlus (.inl h)
  · exact typeText_noPlus (.inr (.inl h))

/-- If its tokens are ordinary, a document is accepted with interface `c` exactly if its tokens say `c`. -/
theorem C77_exact (env : Env) (hU : env.chars.Apart) (doc : Str) (toks : List STok) (c : Contract)
    (hl : lexDoc env.chars doc = some toks) (ho : Ordinary (toks.map (·.tok))) :
    fromStr env doc = .ok c ↔ ProgramSays (toks.map (·.tok)) c := by
  refine ⟨fun h => ?_, C77_document env doc toks c hl⟩
  obtain ⟨toks', p, hl', hp, -⟩ := fromStr_ok_iff.mp h
  rw [hl, Option.some.injEq] at hl'
  subst hl'
  have hu : ∀ t ∈ toks, t.tok ≠ .unknown := by
    intro t ht e
    obtain ⟨m, hm⟩ := C14_unknown_rejected env doc t (by rw [yielded_of_lexDoc hl]; exact ht) (.inl e)
    rw [h] at hm; simp at hm
  have hn := fun t ht => lexed_name hU doc toks hl hu t ht
  have d := C15_sound _ _ hp
  have key : ∀ b, (b = true → NoOddMaps (wordsOf toks)) → (b = false → ¬ [.with_, .contract, .field] <:+: wordsOf toks) →
      ProgramSays (wordsOf toks) c := by
    intro b h1 h2
    have ha : OrdinaryAt b (wordsOf toks) := by
      refine ⟨ho.noEvent, fun s hs => ?_, fun s hs => ?_, ho.fields, h1, h2⟩
      · obtain ⟨t, ht, e⟩ := List.mem_map.1 hs
        exact plusFree (hn t ht) (.inl e)
      · obtain ⟨t, ht, e⟩ := List.mem_map.1 hs
        exact plusFree (hn t ht) (.inr e)
    have hm := program_fine ha d
    have hv := C24_document env doc toks p hl d
    cases e : readProgram p with
    | ok c' =>
      rw [e] at hv
      rw [h] at hv
      simp only [ParseResult.ok.injEq] at hv
      subst hv
      exact says_program d e
    | error why =>
      rw [e] at hv hm
      cases why with
      | misread => exact absurd rfl hm
      | panics => rw [h] at hv; simp at hv
      | fails => rw [h] at hv; simp at hv
  rcases ho.maps with h1 | h1
  · exact key false (by simp) fun _ => h1
  · exact key true (fun _ => h1) (by simp)

/-! ### Witnesses -/

theorem infix_at {a w : List Token} (h : a <:+: w) : ∃ i, i ≤ w.length ∧ ∀ j < a.length, w[i + j]? = a[j]? := by
  obtain ⟨u, v, rfl⟩ := h
  refine ⟨u.length, by simp, fun j hj => ?_⟩
  rw [List.append_assoc, List.getElem?_append_right (by omega), List.getElem?_append_left (by omega)]
  congr 1; omega

/-- a test for ordinary tokens without odd maps -/
def looksOrdinary (w : List Token) : Bool :=
  !w.contains .eventType && !w.contains .dot && (List.range (w.length + 1)).all fun i =>
    (w[i]? != some .field || match w[i + 1]? with | none => true | some (.identifier _) => true | _ => false) &&
    (w[i]? != some .map || (w[i + 2]? != some .with_ && w[i + 3]? != some .with_))

theorem looksOrdinary_sound {w : List Token} (h : looksOrdinary w = true) : Ordinary w := by
  simp only [looksOrdinary, Bool.and_eq_true, Bool.not_eq_true', List.contains_eq_mem, decide_eq_false_iff_not,
    List.all_eq_true, List.mem_range, Bool.or_eq_true, bne_iff_ne, ne_eq] at h
  obtain ⟨⟨h1, h2⟩, h3⟩ := h
  refine ⟨h1, fun t ht => ?_, .inr ⟨fun k t _ _ hi => ?_, fun k _ hi => ?_, fun k _ hi => ?_⟩⟩
  · obtain ⟨i, hi, hj⟩ := infix_at ht
    have a := hj 0 (by simp)
    have b := hj 1 (by simp)
    rcases (h3 i (by omega)).1 with h | h
    · exact absurd a h
    · simp only [List.getElem?_cons_succ, List.getElem?_cons_zero] at b
      rw [b] at h
      cases t <;> first | exact ⟨_, rfl⟩ | simp at h
  · exact h2 (hi.subset (by simp))
  · obtain ⟨i, hi, hj⟩ := infix_at hi
    have a := hj 0 (by simp)
    have b := hj 2 (by simp)
    rcases (h3 i (by omega)).2 with h | h
    · exact h a
    · exact h.1 b
  · obtain ⟨i, hi, hj⟩ := infix_at hi
    have a := hj 0 (by simp)
    have b := hj 3 (by simp)
    rcases (h3 i (by omega)).2 with h | h
    · exact h a
    · exact h.2 b

/-- the demonstration contract has ordinary tokens, and they say its interface -/
example : Ordinary (demoToks.map (·.tok)) ∧ ProgramSays (demoToks.map (·.tok)) demoContract :=
  have h : Ordinary (demoToks.map (·.tok)) := looksOrdinary_sound (by decide +kernel)
  ⟨h, (C77_exact demoEnv (fun _ _ h => by simp [demoEnv, demoU] at h) demoDoc demoToks demoContract demo_lexes h).mp demo_fromStr⟩

/-- a type with superfluous arguments, one of which has no meaning, and a namespace that is lost: `Pair List (M.T) Int32` -/
example : Says .alone [.customIdentifier (str! "Pair"), .customIdentifier (str! "List"), .openParen,
    .customIdentifier (str! "M"), .dot, .customIdentifier (str! "T"), .closeParen, .customIdentifier (str! "Int32")]
    [str! "M"] (some (.pair (.other (str! "T")) .int32)) := by
  have n1 := NameSays.word (.upper (str! "Pair") (by decide))
  have n2 := NameSays.word (.upper (str! "List") (by decide))
  have n3 := NameSays.inNamespace (.upper (str! "M") (by decide)) (.upper (str! "T") (by decide))
  have n4 := NameSays.word (.upper (str! "Int32") (by decide))
  exact .apply (p := .alone) rfl n1 (.arg (.name rfl n2) (.arg (.parens rfl (.apply (p := .alone) rfl n3 .noArgs))
    (.arg (.name rfl n4) .noArgs)))

end Verif
