import Verif.Props.Reprint
import Verif.Props.Emitter1
/-
C74: in ASCII documents the text between the offsets of a token determines the token.
-/
namespace Verif

/-- `s` is the text of the document between the two offsets of the token -/
def CutFrom (doc : Str) (t : STok) (s : Str) : Prop :=
  ∃ pre post, doc = pre ++ s ++ post ∧ bytes pre = t.start.position ∧ bytes (pre ++ s) = t.stop.position

/-- the texts of the tokens, one by one -/
inductive Cuts (doc : Str) : List STok → List Str → Prop where
  | nil : Cuts doc [] []
  | cons {t : STok} {s : Str} {ts : List STok} {ss : List Str} : CutFrom doc t s → Cuts doc ts ss →
      Cuts doc (t :: ts) (s :: ss)

theorem prefix_unique {a b c d : Str} (h : a ++ b = c ++ d) (hb : bytes a = bytes c) : a = c := by
  have h1 : sliceTo (a ++ b) (bytes a) = some a := sliceTo_prefix
  have h2 : sliceTo (c ++ d) (bytes c) = some c := sliceTo_prefix
  rw [h, hb, h2] at h1
  exact (Option.some.inj h1).symm

theorem cut_unique {doc : Str} {t : STok} {s s' : Str} (h : CutFrom doc t s) (h' : CutFrom doc t s') : s = s' := by
  obtain ⟨a, b, e1, e2, e3⟩ := h
  obtain ⟨c, d, f1, f2, f3⟩ := h'
  have h1 : a = c := prefix_unique (by rw [← List.append_assoc, ← e1, ← List.append_assoc, ← f1]) (by omega)
  subst h1
  have h2 : a ++ s = a ++ s' := prefix_unique (by rw [← e1, ← f1]) (by omega)
  exact List.append_cancel_left h2

/-- every token of every document has exactly one text; that of an unrecognised character is empty -/
theorem C74_text (U : CharClass) (doc : Str) (t : STok) (ht : t ∈ yielded U doc) :
    (∃ s, CutFrom doc t s) ∧ (∀ s s', CutFrom doc t s → CutFrom doc t s' → s = s') ∧
    (∀ s, CutFrom doc t s → (s = [] ↔ t.tok = .unknown)) := by
  have huniq : ∀ s s', CutFrom doc t s → CutFrom doc t s' → s = s' := fun s s' h h' => cut_unique h h'
  by_cases hu : t.tok = .unknown
  · have hex : CutFrom doc t [] := by
      obtain ⟨l, τ, hl, e⟩ := yielded_path U doc
      rw [← e] at ht
      obtain ⟨a, x, b, rfl⟩ := mem_segTokens ht
      obtain ⟨σ, hr, hs⟩ := hl.split
      cases hs with
      | @cons _ _ σ' _ _ hs _ =>
        obtain ⟨m, ⟨q, hq⟩, hstop, _, hun, _⟩ := hs.token_spec
        have h1 := hr.inv
        have h2 := hs.rest
        have h3 := h2.2.2.2.2.2.2 t x rfl
        obtain ⟨rfl, _⟩ := hun hu
        refine ⟨segText a, σ.rest, ?_, ?_, ?_⟩
        · have : doc = segText a ++ σ.rest := h1.1
          rw [List.append_nil]; exact this
        · rw [h3]; simp [h1.2, LexState.init]
        · rw [List.append_nil, hstop, h3]; simp [h1.2, LexState.init]
    exact ⟨⟨[], hex⟩, huniq, fun s hs => ⟨fun _ => hu, fun _ => huniq _ _ hs hex⟩⟩
  · obtain ⟨pre, post, h1, h2, h3⟩ := C05_text_is_slice U doc t ht hu
    have hex : CutFrom doc t t.tok.text := ⟨pre, post, h1, h2, h3⟩
    refine ⟨⟨_, hex⟩, huniq, fun s hs => ⟨fun e => ?_, fun e => absurd e hu⟩⟩
    subst e
    exfalso
    have := (C04_spans U doc).1 t ht
    obtain ⟨p, q, _, e2, e3⟩ := hs
    rw [List.append_nil] at e3
    have := this.2.1 hu
    omega

/-- a token whose text begins with a quote is a string literal -/
theorem wellFormed_quote {t : Token} (h : WellFormed t) (hq : t.text.head? = some '"') : ∃ s, t = .stringLiteral s := by
  cases t
  case stringLiteral s => exact ⟨s, rfl⟩
  case byStrWithSize s =>
    obtain ⟨ds, rfl, _⟩ := h
    simp [Token.text] at hq
  case number s =>
    obtain ⟨sg, ds, rfl, h1, h2, h3⟩ := h
    cases ds with
    | nil => exact absurd rfl h2
    | cons d ds =>
      have := h3 d (by simp)
      rcases h1 with rfl | rfl
      · simp [Token.text] at hq; subst hq; exact absurd this (by unfold Digit; decide)
      · simp [Token.text] at hq
  case hexNumber s =>
    obtain ⟨x, ds, rfl, _⟩ := h
    simp [Token.text] at hq
  case identifier s =>
    obtain ⟨c, w, rfl, h1, h2, _⟩ := h
    simp [Token.text] at hq
    subst hq
    exact absurd h1 (by decide)
  case customIdentifier s =>
    obtain ⟨c, w, rfl, h1, h2, _⟩ := h
    simp [Token.text] at hq
    subst hq
    exact absurd h1 (by decide)
  case templateIdentifier s =>
    obtain ⟨c, w, rfl, h1, h2, _⟩ := h
    simp [Token.text] at hq
  case specialIdentifier s =>
    obtain ⟨w, rfl, _⟩ := h
    simp [Token.text] at hq
  case comment => exact absurd h (by simp [WellFormed])
  case typeName => exact absurd h (by simp [WellFormed])
  all_goals exact absurd hq (by decide)

theorem printable_text_inj {t u : Token} (ht : Printable t) (hu : Printable u) (h : t.text = u.text) : t = u := by
  have hsp : ∀ v : Token, Separated v (str! " ") := by
    intro v c hc
    simp at hc
    subst hc
    refine ⟨by decide, fun _ => by unfold NameChar; decide, fun _ => by decide, fun _ => by decide, fun _ => by decide,
      fun _ => ⟨by decide, by unfold Digit; decide⟩⟩
  have e1 := lexToks_printable demoU ht (hsp t)
  have e2 := lexToks_printable demoU hu (hsp u)
  rw [h, e2] at e1
  have : lexToks demoU (str! " ") = some [] := by decide +kernel
  rw [this] at e1
  simpa using e1.symm

/-- C74: the text determines the token, across all ASCII documents -/
theorem C74_spelling (U U' : CharClass) (d d' : Str) (hd : Ascii d) (hd' : Ascii d') (ts ts' : List STok)
    (hl : lexDoc U d = some ts) (hl' : lexDoc U' d' = some ts') (t t' : STok) (ht : t ∈ ts) (ht' : t' ∈ ts') (s : Str)
    (hs : CutFrom d t s) (hs' : CutFrom d' t' s) : t.tok = t'.tok := by
  have hy : t ∈ yielded U d := by rw [yielded_of_lexDoc hl]; exact ht
  have hy' : t' ∈ yielded U' d' := by rw [yielded_of_lexDoc hl']; exact ht'
  by_cases hu : t.tok = .unknown
  · have : s = [] := ((C74_text U d t hy).2.2 s hs).2 hu
    rw [hu, ((C74_text U' d' t' hy').2.2 s hs').1 this]
  · have hne : s ≠ [] := fun e => hu (((C74_text U d t hy).2.2 s hs).1 e)
    have hu' : t'.tok ≠ .unknown := fun e => hne (((C74_text U' d' t' hy').2.2 s hs').2 e)
    have e : s = t.tok.text := cut_unique hs (C05_text_is_slice U d t hy hu)
    have e' : s = t'.tok.text := cut_unique hs' (C05_text_is_slice U' d' t' hy' hu')
    have w := C09_well_formed U d t hy
    have w' := C09_well_formed U' d' t' hy'
    by_cases hq : s.head? = some '"'
    · obtain ⟨b, hb⟩ := wellFormed_quote w (by rw [← e]; exact hq)
      obtain ⟨b', hb'⟩ := wellFormed_quote w' (by rw [← e']; exact hq)
      rw [hb] at e ⊢
      rw [hb'] at e' ⊢
      have e1 : s = b := e
      have e2 : s = b' := e'
      rw [← e1, ← e2]
    · have st : ∀ v : Token, v ≠ .unknown → WellFormed v → v.text = s → v.steady := by
        intro v h1 h2 h3
        refine ⟨h1, ?_⟩
        rintro b rfl
        obtain ⟨x, hx, _⟩ := h2
        rw [← h3] at hq
        simp [Token.text, hx] at hq
      exact printable_text_inj (lexed_printable U d hd ts hl t ht (st _ hu w e.symm))
        (lexed_printable U' d' hd' ts' hl' t' ht' (st _ hu' w' e'.symm)) (by rw [← e, ← e'])

/-- C74: two ASCII documents whose tokens are cut from the same texts in the same order have the same tokens, hence the
same result -/
theorem C74_documents (env : Env) (d d' : Str) (hd : Ascii d) (hd' : Ascii d') (ts ts' : List STok)
    (hl : lexDoc env.chars d = some ts) (hl' : lexDoc env.chars d' = some ts') (ss : List Str)
    (h : Cuts d ts ss) (h' : Cuts d' ts' ss) :
    ts.map (·.tok) = ts'.map (·.tok) ∧ SameResult (fromStr env d) (fromStr env d') ∧
      ((parseProgram ts).isSome = true → fromStr env d = fromStr env d') := by
  have key : ∀ (ss : List Str) (us us' : List STok), (∀ t ∈ us, t ∈ ts) → (∀ t ∈ us', t ∈ ts') → Cuts d us ss →
      Cuts d' us' ss → us.map (·.tok) = us'.map (·.tok) := by
    intro ss
    induction ss with
    | nil => intro us us' _ _ h h'; cases h; cases h'; rfl
    | cons s ss ih =>
      intro us us' m m' h h'
      cases h with
      | cons c1 r1 =>
        cases h' with
        | cons c2 r2 =>
          rename_i t us t' us'
          simp only [List.map_cons]
          rw [C74_spelling _ _ d d' hd hd' ts ts' hl hl' t t' (m t (by simp)) (m' t' (by simp)) s c1 c2,
            ih us us' (fun x hx => m x (by simp [hx])) (fun x hx => m' x (by simp [hx])) r1 r2]
  have e := key ss ts ts' (fun _ h => h) (fun _ h => h) h h'
  exact ⟨e, C18_documents env d d' ts ts' hl hl' e⟩

/-- the texts of the tokens of a document always exist -/
theorem C74_texts_exist (U : CharClass) (doc : Str) (ts : List STok) (h : lexDoc U doc = some ts) :
    ∃ ss, Cuts doc ts ss ∧ ss.length = ts.length := by
  have key : ∀ us : List STok, (∀ t ∈ us, t ∈ ts) → ∃ ss, Cuts doc us ss ∧ ss.length = us.length := by
    intro us
    induction us with
    | nil => intro _; exact ⟨[], .nil, rfl⟩
    | cons t us ih =>
      intro m
      obtain ⟨ss, h1, h2⟩ := ih fun x hx => m x (by simp [hx])
      obtain ⟨⟨s, hs⟩, _⟩ := C74_text U doc t (by rw [yielded_of_lexDoc h]; exact m t (by simp))
      exact ⟨s :: ss, .cons hs h1, by simp [h2]⟩
  exact key ts fun _ h => h

/-- two layouts of the same texts: the hypotheses of `C74_documents` are met, and the tokens are not trivial -/
theorem C74_witness : ∃ ts ts' ss, lexDoc demoU (str! "let  x=ByStr20 (* *) 0x12") = some ts ∧
    lexDoc demoU (str! "let x = ByStr20\n0x12") = some ts' ∧ Cuts (str! "let  x=ByStr20 (* *) 0x12") ts ss ∧
    Cuts (str! "let x = ByStr20\n0x12") ts' ss ∧ ss.length = 5 ∧ ts ≠ ts' := by
  refine ⟨[⟨⟨0, 0, 0⟩, .let_, ⟨3, 0, 3⟩⟩, ⟨⟨5, 0, 4⟩, .identifier (str! "x"), ⟨6, 0, 5⟩⟩,
      ⟨⟨6, 0, 5⟩, .equals, ⟨7, 0, 6⟩⟩, ⟨⟨7, 0, 6⟩, .byStrWithSize (str! "ByStr20"), ⟨14, 0, 13⟩⟩,
      ⟨⟨21, 0, 20⟩, .hexNumber (str! "0x12"), ⟨25, 0, 24⟩⟩],
    [⟨⟨0, 0, 0⟩, .let_, ⟨3, 0, 3⟩⟩, ⟨⟨4, 0, 3⟩, .identifier (str! "x"), ⟨5, 0, 4⟩⟩,
      ⟨⟨6, 0, 5⟩, .equals, ⟨7, 0, 6⟩⟩, ⟨⟨8, 0, 7⟩, .byStrWithSize (str! "ByStr20"), ⟨15, 0, 14⟩⟩,
      ⟨⟨16, 1, 0⟩, .hexNumber (str! "0x12"), ⟨20, 1, 4⟩⟩],
    [str! "let", str! "x", str! "=", str! "ByStr20", str! "0x12"],
    by decide +kernel, by decide +kernel, ?_, ?_, rfl, by decide⟩
  · exact .cons ⟨[], str! "  x=ByStr20 (* *) 0x12", rfl, rfl, rfl⟩ <|
      .cons ⟨str! "let  ", str! "=ByStr20 (* *) 0x12", rfl, rfl, rfl⟩ <|
      .cons ⟨str! "let  x", str! "ByStr20 (* *) 0x12", rfl, rfl, rfl⟩ <|
      .cons ⟨str! "let  x=", str! " (* *) 0x12", rfl, rfl, rfl⟩ <|
      .cons ⟨str! "let  x=ByStr20 (* *) ", [], rfl, rfl, rfl⟩ .nil
  · exact .cons ⟨[], str! " x = ByStr20\n0x12", rfl, rfl, rfl⟩ <|
      .cons ⟨str! "let ", str! " = ByStr20\n0x12", rfl, rfl, rfl⟩ <|
      .cons ⟨str! "let x ", str! " ByStr20\n0x12", rfl, rfl, rfl⟩ <|
      .cons ⟨str! "let x = ", str! "\n0x12", rfl, rfl, rfl⟩ <|
      .cons ⟨str! "let x = ByStr20\n", [], rfl, rfl, rfl⟩ .nil

/-- outside ASCII it fails: the text `end` can be a keyword or a name -/
theorem C74_non_ascii_witness (U : CharClass) (h : U.alnum 'é' = true) :
    ∃ ts ts', lexToks U (str! "endé") = some (.identifier (str! "end") :: ts) ∧
      lexToks U (str! "end ") = some (.end_ :: ts') := by
  obtain ⟨ts, h1⟩ := C07_non_ascii_witness U h
  exact ⟨ts, [], h1, rfl⟩

end Verif
