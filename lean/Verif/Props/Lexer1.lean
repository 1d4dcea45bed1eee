import Verif.Proofs.LexToks
/-
Lexical properties that hold for every document: C01, C03, C04, C05, C09, C11, C12, C13; and C02.
Every theorem is for every classification `U` of the non-ASCII characters.
-/
namespace Verif

/-! ## C01 — termination and progress -/

/-- Calling `next` repeatedly from state `σ` yields exactly `ts` and then `None`. -/
inductive Drained (U : CharClass) : LexState → List STok → Prop
  | done {σ} : lexNext U σ = .none → Drained U σ []
  | item {σ σ' t ts} : lexNext U σ = .item t σ' → Drained U σ' ts → Drained U σ (t :: ts)

/-- Calling `next` repeatedly from state `σ` ends in a panic. -/
inductive Crashes (U : CharClass) : LexState → Prop
  | now {σ} : lexNext U σ = .panic → Crashes U σ
  | later {σ σ' t} : lexNext U σ = .item t σ' → Crashes U σ' → Crashes U σ

/-- One call of `next` is the loop of lexer.rs 249-723: the fuel in the model never runs out. -/
theorem C01_next_is_the_loop (U : CharClass) (σ : LexState) :
    lexNext U σ = match lexStep U σ with
      | .eof => .none
      | .skip σ' => lexNext U σ'
      | .yield t σ' => .item t σ'
      | .panic => .panic := lexNext_eq U σ

/-- every yielded item consumes at least one further character -/
theorem C01_progress (U : CharClass) {σ σ' : LexState} {t : STok}
    (h : lexNext U σ = .item t σ') : ∃ x, x ≠ [] ∧ σ.rest = x ++ σ'.rest := by
  generalize hn : σ.rest.length = n
  induction n using Nat.strongRecOn generalizing σ with
  | _ n ih =>
    rw [lexNext_eq] at h
    split at h
    · simp at h
    · rename_i σ1 h1
      have hlt := lexStep_skip_lt h1
      obtain ⟨x, hx, hr⟩ := ih _ (by omega) h rfl
      obtain ⟨s, hs, _⟩ := Steps.of_skip h1
      refine ⟨s.text ++ x, by simp [hx], ?_⟩
      rw [hs.rest.1, hr, List.append_assoc]
    · rename_i h1
      injection h with h2 h3; subst h2 h3
      obtain ⟨x, hs⟩ := Steps.of_yield h1
      exact ⟨_, hs.rest.2.2.1, hs.rest.1⟩
    · simp at h

theorem C01_terminates (U : CharClass) (doc : Str) :
    (∃ ts, Drained U (.init doc) ts ∧ ts.length ≤ doc.length ∧ lexDoc U doc = some ts) ∨
    (Crashes U (.init doc) ∧ lexDoc U doc = none) := by
  rw [lexDoc_eq_drain]
  have hlen : (LexState.init doc).rest.length = doc.length := rfl
  rw [← hlen]
  generalize LexState.init doc = σ
  generalize hn : σ.rest.length = n
  induction n using Nat.strongRecOn generalizing σ with
  | _ n ih =>
    cases h : lexNext U σ with
    | none => exact .inl ⟨[], .done h, by simp, by rw [drain, drainFuel, h]⟩
    | panic => exact .inr ⟨.now h, by rw [drain, drainFuel, h]⟩
    | item t σ' =>
      have hlt := lexNext_item_lt h
      have hd : drain U σ = (drain U σ').map (t :: ·) := by
        rw [drain, drainFuel, h]
        simp only [drain]
        rw [drainFuel_stable U _ (σ'.rest.length + 1) σ' (by omega) (by omega)]
      rcases ih σ'.rest.length (by omega) σ' rfl with ⟨ts, h1, h2, h3⟩ | ⟨h1, h2⟩
      · exact .inl ⟨t :: ts, .item h h1, by simp; omega, by rw [hd, h3]; rfl⟩
      · exact .inr ⟨.later h h1, by rw [hd, h2]; rfl⟩

/-- the outcome is unique -/
theorem C01_deterministic (U : CharClass) {σ : LexState} {ts ts' : List STok}
    (h : Drained U σ ts) (h' : Drained U σ ts') : ts = ts' ∧ ¬ Crashes U σ := by
  induction h generalizing ts' with
  | done h =>
    refine ⟨?_, ?_⟩
    · cases h' with
      | done => rfl
      | item h2 => rw [h] at h2; simp at h2
    · intro hc
      cases hc with
      | now h2 => rw [h] at h2; simp at h2
      | later h2 => rw [h] at h2; simp at h2
  | item h _ ih =>
    cases h' with
    | done h2 => rw [h] at h2; simp at h2
    | item h2 h3 =>
      rw [h] at h2; injection h2 with h4 h5; subst h4 h5
      refine ⟨by rw [(ih h3).1], ?_⟩
      intro hc
      cases hc with
      | now h2 => rw [h] at h2; simp at h2
      | later h2 h4 =>
        rw [h] at h2; injection h2 with h5 h6; subst h5 h6
        exact (ih h3).2 h4

/-- a document with a comment, three tokens and a nonempty tail -/
example (U : CharClass) : ∃ ts, Drained U (.init (str! "let (* c *) x;")) ts ∧ ts.length = 3 :=
  ⟨_, .item rfl (.item rfl (.item rfl (.done rfl))), rfl⟩

/-! ## C03 — exactly when the lexer panics -/

/-- The lexer panics at a position exactly when the character there starts no fixed token and the
character count of the leading name run is not a byte boundary of the remaining text. -/
theorem C03_step_panics_iff (U : CharClass) (σ : LexState) :
    lexStep U σ = .panic ↔ ∃ ch r, σ.rest = ch :: r ∧
      (U.isWhite ch = false ∧
       ch ∉ ['+', '*', ';', ':', '.', '|', '[', ']', '(', ')', '{', '}', ',', '&', '@', '='] ∧
       (ch = '-' → ∃ d, r.head? = some d ∧ U.isNumeric d = true) ∧
       (ch = '_' → ∃ d, r.head? = some d ∧ U.isIdent d = true) ∧
       (ch = '<' → r.head? ≠ some '-')) ∧
      (∃ c ∈ ch :: r, U.isIdent c = false) ∧
      ¬ ∃ p q, ch :: r = p ++ q ∧ bytes p = ((ch :: r).takeWhile U.isIdent).length := by
  unfold lexStep
  cases hr : σ.rest with
  | nil => simp
  | cons ch r =>
    simp only [List.cons.injEq]
    have := scan_panic_iff U ch r
    constructor
    · intro h
      refine ⟨ch, r, ⟨rfl, rfl⟩, this.mp ?_⟩
      split at h
      · split at h <;> simp at h
      · simp at h
      · simp at h
      · assumption
    · rintro ⟨_, _, ⟨rfl, rfl⟩, h⟩
      rw [this.mpr h]

/-- draining panics iff one of the steps of the run panics -/
theorem C03_document (U : CharClass) (doc : Str) :
    lexDoc U doc = none ↔ ∃ pre σ, Reach U (.init doc) pre σ ∧ lexStep U σ = .panic := by
  rw [lexDoc_none_iff]
  constructor
  · generalize LexState.init doc = σ
    intro h
    induction h with
    | panic h => exact ⟨[], _, .refl, h⟩
    | skip h _ ih =>
      obtain ⟨pre, σ', h1, h2⟩ := ih
      obtain ⟨s, hs, _⟩ := Steps.of_skip h
      exact ⟨s :: pre, σ', h1.cons hs, h2⟩
    | yield h _ ih =>
      obtain ⟨pre, σ', h1, h2⟩ := ih
      obtain ⟨x, hs⟩ := Steps.of_yield h
      exact ⟨_ :: pre, σ', h1.cons hs, h2⟩
  · rintro ⟨pre, σ, hr, hp⟩
    generalize LexState.init doc = σ0 at hr
    have : RunPanic U σ := .panic hp
    clear hp
    induction hr with
    | refl => exact this
    | @snoc σ' σ'' l s _ hs ih =>
      apply ih
      have h := hs.lexStep
      cases s <;> simp only at h
      · exact .skip h this
      · exact .skip h this
      · exact .yield h this

/-- `é;` panics (for a classification under which `é` is alphanumeric, as in Unicode). -/
theorem C03_witness (U : CharClass) (h : U.alnum 'é' = true) (hw : U.white 'é' = false) :
    lexDoc U ['é', ';'] = none := by
  have : lexStep U (.init ['é', ';']) = .panic := by
    rw [C03_step_panics_iff]
    have h1 : U.isIdent 'é' = true := by simp [CharClass.isIdent, CharClass.isAlnum, isAscii, h]
    have h2 : U.isIdent ';' = false := by rw [isIdent_of_ascii U (by decide)]; decide
    refine ⟨'é', [';'], rfl, ⟨?_, by decide, fun h => absurd h (by decide), fun h => absurd h (by decide), by decide⟩,
      ⟨';', by simp, h2⟩, ?_⟩
    · simp [CharClass.isWhite, isAscii, hw]
    · rintro ⟨p, q, hp, hb⟩
      have hl : (List.takeWhile U.isIdent ['é', ';']).length = 1 := by simp [List.takeWhile, h1, h2]
      rw [hl] at hb
      cases p with
      | nil => simp at hb
      | cons c p =>
        simp at hp
        obtain ⟨rfl, hp⟩ := hp
        have : ('é' : Char).utf8Size = 2 := by decide
        simp [this] at hb
        omega
  rw [lexDoc_eq_drain, drain_eq, this]

/-! ## C02 — ASCII documents never panic -/

theorem Reach.suffix {U : CharClass} {σ σ' : LexState} {l : List Seg} (h : Reach U σ l σ') :
    σ'.rest <:+ σ.rest := ⟨_, h.inv.1.symm⟩

/-- More generally: if every name character of the document is ASCII (non-ASCII punctuation,
symbols, ... are allowed anywhere) the lexer does not panic. -/
theorem C02_no_panic_general (U : CharClass) (doc : Str)
    (h : ∀ c ∈ doc, U.isIdent c = true → c.toNat < 128) : lexDoc U doc ≠ none := by
  intro hn
  obtain ⟨pre, σ, hr, hp⟩ := (C03_document U doc).mp hn
  obtain ⟨ch, r, hrest, _, _, hno⟩ := (C03_step_panics_iff U σ).mp hp
  apply hno
  have hsub : ∀ c ∈ ch :: r, U.isIdent c = true → c.toNat < 128 := fun c hc =>
    h c (hr.suffix.subset (hrest ▸ hc))
  obtain ⟨q, hq⟩ := List.takeWhile_prefix (p := U.isIdent) (l := ch :: r)
  refine ⟨_, q, hq.symm, ?_⟩
  apply Ascii.bytes
  intro c hc
  exact hsub c (List.takeWhile_subset _ hc) (mem_takeWhile_imp hc)

theorem C02_ascii_no_panic (U : CharClass) (doc : Str) (h : Ascii doc) :
    ∃ ts, lexDoc U doc = some ts := by
  have := C02_no_panic_general U doc fun c hc _ => h c hc
  exact Option.ne_none_iff_exists'.mp this

example : Ascii (str! "contract C(x: Uint128) field f : Map = Emp \"a\\\"\"") := by
  unfold Ascii; decide

/-! ## C04, C05 — spans -/

/-- C04: the spans of the tokens yielded from a document (also if the lexer panics later on). -/
theorem C04_spans (U : CharClass) (doc : Str) :
    (∀ t ∈ yielded U doc, t.start.position ≤ t.stop.position ∧
      (t.tok ≠ .unknown → t.start.position < t.stop.position) ∧
      t.stop.position ≤ bytes doc) ∧
    (yielded U doc).Pairwise (fun a b => a.start.position < b.start.position ∧
      a.stop.position ≤ b.start.position) := by
  obtain ⟨l, τ, hl, e⟩ := yielded_path U doc
  rw [← e]
  have gen : ∀ (σ : LexState) (l : List Seg) (τ : LexState), Path U σ l τ →
      (∀ t ∈ segTokens l, σ.offset ≤ t.start.position ∧ t.start.position ≤ t.stop.position ∧
        (t.tok ≠ .unknown → t.start.position < t.stop.position) ∧
        t.stop.position ≤ σ.offset + bytes σ.rest) ∧
      (segTokens l).Pairwise (fun a b => a.start.position < b.start.position ∧
        a.stop.position ≤ b.start.position) := by
    intro σ l τ h
    induction h with
    | nil => simp [segTokens]
    | @cons σ s σ' l _ hs _ ih =>
      obtain ⟨h1, h2, h3, _, _, _, h7⟩ := hs.rest
      have hb : bytes σ.rest = bytes s.text + bytes σ'.rest := by rw [h1, bytes_append]
      have hpos := bytes_pos h3
      have tail : ∀ t ∈ segTokens l, σ.offset ≤ t.start.position ∧
          t.start.position ≤ t.stop.position ∧
          (t.tok ≠ .unknown → t.start.position < t.stop.position) ∧
          t.stop.position ≤ σ.offset + bytes σ.rest := by
        intro t ht
        obtain ⟨a1, a2, a3, a4⟩ := ih.1 t ht
        exact ⟨by omega, a2, a3, by omega⟩
      cases s with
      | white c => simp only [segTokens]; exact ⟨tail, ih.2⟩
      | comment c => simp only [segTokens]; exact ⟨tail, ih.2⟩
      | token t x =>
        simp only [segTokens]
        obtain ⟨m, hm, hstop, hne, hun, _⟩ := hs.token_spec
        have hst := h7 t x rfl
        have hp : t.start.position = σ.offset := by rw [hst]
        have hmx : bytes m ≤ bytes x := by
          obtain ⟨q, rfl⟩ := hm; rw [bytes_append]; omega
        simp only [Seg.text] at hb h2 hpos
        refine ⟨?_, ?_⟩
        · intro t' ht'
          rcases List.mem_cons.mp ht' with rfl | ht'
          · refine ⟨by omega, by omega, ?_, by omega⟩
            intro hu
            have := bytes_pos (hne hu).2.1
            omega
          · exact tail t' ht'
        · rw [List.pairwise_cons]
          refine ⟨?_, ih.2⟩
          intro b hb'
          obtain ⟨a1, _⟩ := ih.1 b hb'
          omega
  have := gen _ _ _ hl
  refine ⟨fun t ht => ?_, this.2⟩
  obtain ⟨_, a2, a3, a4⟩ := this.1 t ht
  refine ⟨a2, a3, ?_⟩
  simpa [LexState.init] using a4

/-- The text of a token is the slice of the document between its offsets. -/
theorem C05_text_is_slice (U : CharClass) (doc : Str)
    (t : STok) (ht : t ∈ yielded U doc) (hu : t.tok ≠ .unknown) :
    ∃ pre post, doc = pre ++ t.tok.text ++ post ∧ bytes pre = t.start.position ∧
      bytes (pre ++ t.tok.text) = t.stop.position := by
  obtain ⟨l, τ, hl, e⟩ := yielded_path U doc
  rw [← e] at ht
  obtain ⟨a, x, b, rfl⟩ := mem_segTokens ht
  obtain ⟨σ, hr, hs⟩ := hl.split
  cases hs with
  | @cons _ _ σ' _ _ hs _ =>
    obtain ⟨m, ⟨q, hq⟩, hstop, hne, _, _⟩ := hs.token_spec
    obtain ⟨hm, _, _⟩ := hne hu
    have h1 := hr.inv
    have h2 := hs.rest
    have h3 := h2.2.2.2.2.2.2 t x rfl
    refine ⟨segText a, q ++ σ'.rest, ?_, ?_, ?_⟩
    · have : doc = segText a ++ σ.rest := h1.1
      rw [this, h2.1, ← hm]
      simp [Seg.text, ← hq]
    · rw [h3]; simp [h1.2, LexState.init]
    · rw [bytes_append, hstop, h3, ← hm]; simp [h1.2, LexState.init]

/-- C04/C05 on a document with every kind of layout. -/
example (U : CharClass) : lexDoc U (str! "a (* é *) -5") = some
    [⟨⟨0, 0, 0⟩, .identifier (str! "a"), ⟨1, 0, 1⟩⟩,
     ⟨⟨11, 0, 10⟩, .number (str! "-5"), ⟨13, 0, 12⟩⟩] := by rfl

/-- the tokens before a panic count as well -/
example : lexDoc ⟨fun _ => true, fun _ => false, fun _ => false⟩ (str! "let x é;") = none ∧
    (yielded ⟨fun _ => true, fun _ => false, fun _ => false⟩ (str! "let x é;")).map (·.tok) =
      [.let_, .identifier (str! "x")] := by
  constructor <;> decide +kernel

/-! ## C09 — lexeme shapes -/

/-- C09: every token yielded from any document has a lexeme of its class. -/
theorem C09_well_formed (U : CharClass) (doc : Str) (t : STok) (ht : t ∈ yielded U doc) :
    WellFormed t.tok := by
  obtain ⟨l, τ, hl, e⟩ := yielded_path U doc
  rw [← e] at ht
  obtain ⟨a, x, b, rfl⟩ := mem_segTokens ht
  obtain ⟨σ, _, hs⟩ := hl.split
  cases hs with
  | cons hs _ => exact hs.token_spec.choose_spec.2.2.2.2

/-- `+5` is not a number: the sign `+` is always a token of its own. -/
theorem C09_plus_is_never_a_sign (U : CharClass) (r : Str) :
    lexToks U ('+' :: r) = (lexToks U r).map (.plus :: ·) := by
  rw [lexToks_cons]
  have : U.isWhite '+' = false := by
    cases h : U.isWhite '+' with
    | false => rfl
    | true =>
      rw [isWhite_of_ascii U (by decide)] at h
      revert h; unfold AsciiWhite; decide
  simp [scan, this, singleTok]

/-! ## C11 — comments -/

/-- A closed comment is skipped up to the first `*)`, at any point of a run. -/
theorem C11_closed_comment (U : CharClass) (σ : LexState) (body q : Str) (hb : NoClose body)
    (h : σ.rest = str! "(*" ++ (body ++ (str! "*)" ++ q))) :
    ∃ σ', lexNext U σ = lexNext U σ' ∧ σ'.rest = q ∧ σ'.line = σ.line ∧
      σ'.offset = σ.offset + bytes (str! "(*" ++ (body ++ str! "*)")) := by
  simp only [List.cons_append, List.nil_append] at h
  have hlen : (body ++ '*' :: ')' :: q).drop (body.length + 2) = q := by
    rw [show body ++ '*' :: ')' :: q = (body ++ ['*', ')']) ++ q by simp]
    exact List.drop_left' (by simp)
  have htake : (body ++ '*' :: ')' :: q).take (body.length + 2) = body ++ ['*', ')'] := by
    rw [show body ++ '*' :: ')' :: q = (body ++ ['*', ')']) ++ q by simp]
    exact List.take_left' (by simp)
  refine ⟨σ.advance '(' ('*' :: (body ++ '*' :: ')' :: q)) (1 + (body.length + 2)), ?_, ?_, rfl, ?_⟩
  · rw [lexNext_eq]
    unfold lexStep
    rw [h]
    simp only
    rw [scan_open, commentLen_closed q hb]
  · simp only [LexState.advance]
    rw [Nat.add_comm, List.drop_succ_cons, hlen]
  · simp only [LexState.advance]
    rw [Nat.add_comm 1, List.take_succ_cons, htake]
    simp

/-- tokens after a closed comment are those of the text after it, whatever the body -/
theorem C11_comment_is_layout (U : CharClass) (body q : Str) (hb : NoClose body) :
    (lexDoc U (str! "(*" ++ (body ++ (str! "*)" ++ q)))).map (·.map (·.tok)) =
      (lexDoc U q).map (·.map (·.tok)) := lexToks_comment U body q hb

/-- An unterminated comment silently swallows the rest of the document. -/
theorem C11_unterminated (U : CharClass) (σ : LexState) (body : Str) (hb : NoClose body)
    (h : σ.rest = str! "(*" ++ body) : lexNext U σ = .none := by
  rw [lexNext_eq]
  unfold lexStep
  rw [h]
  simp only [List.cons_append, List.nil_append]
  rw [scan_open, commentLen_open hb]
  simp only
  rw [lexNext_eq]
  unfold lexStep
  have : (σ.advance '(' ('*' :: body) (1 + body.length)).rest = [] := by
    simp only [LexState.advance]
    rw [Nat.add_comm, List.drop_succ_cons, List.drop_length]
  rw [this]

example : NoClose (str! " x (* y ) * ") := by
  unfold NoClose; decide
/-- nesting is not supported; `(*)` does not close itself -/
example (U : CharClass) : lexToks U (str! "(* a (* b *) c *) d") =
    some [.identifier (str! "c"), .asterisk, .closeParen, .identifier (str! "d")] := by rfl
example (U : CharClass) : lexToks U (str! "(*) a *) b") = some [.identifier (str! "b")] := by rfl

/-! ## C12, C13 — lines and columns -/

/-- `segs` cuts `text` into whitespace, comments and the tokens `ts`. -/
structure Segmentation (U : CharClass) (text : Str) (ts : List STok) (segs : List Seg) : Prop where
  text : segText segs = text
  tokens : segTokens segs = ts
  white : ∀ c, Seg.white c ∈ segs → U.isWhite c = true
  comment : ∀ s, Seg.comment s ∈ segs → ∃ body, NoClose body ∧
    (s = str! "(*" ++ body ∨ s = str! "(*" ++ (body ++ str! "*)"))
  token : ∀ t s, Seg.token t s ∈ segs →
    (t.tok = .unknown ∧ ∃ c, s = [c] ∧ U.isWhite c = false) ∨
    (t.tok ≠ .unknown ∧ t.tok.text <+: s ∧ (Ascii t.tok.text → s = t.tok.text))

theorem Path.segmentation {U : CharClass} {σ τ : LexState} {l : List Seg} (h : Path U σ l τ) :
    Segmentation U (segText l) (segTokens l) l := by
  have gen : ∀ s ∈ l, ∃ σ σ', Steps U σ s σ' := by
    induction h with
    | nil => simp
    | cons hs _ ih =>
      intro s' hs'
      rcases List.mem_cons.mp hs' with rfl | h'
      · exact ⟨_, _, hs⟩
      · exact ih s' h'
  refine ⟨rfl, rfl, ?_, ?_, ?_⟩
  · intro c hc
    obtain ⟨σ, σ', hs⟩ := gen _ hc
    cases hs with
    | white _ hs => exact scan_white_inv hs
  · intro s hmem
    obtain ⟨σ, σ', hs⟩ := gen _ hmem
    clear hmem
    cases hs with
    | comment _ hs =>
      obtain ⟨r', rfl, rfl, rfl⟩ := scan_comment_inv hs
      rw [Nat.add_comm, List.take_succ_cons]
      rcases comment_cases r' with ⟨body, q, rfl, hb⟩ | hb
      · refine ⟨body, hb, .inr ?_⟩
        rw [commentLen_closed q hb, show body ++ '*' :: ')' :: q = (body ++ ['*', ')']) ++ q by simp,
          List.take_left' (by simp)]
        simp
      · refine ⟨r', hb, .inl ?_⟩
        rw [commentLen_open hb, List.take_length]
        simp
  · intro t s hs
    obtain ⟨σ, σ', hs⟩ := gen _ hs
    obtain ⟨m, h1, h2, h3, h4, _⟩ := hs.token_spec
    by_cases hu : t.tok = .unknown
    · obtain ⟨_, c, rfl⟩ := h4 hu
      refine .inl ⟨hu, c, rfl, ?_⟩
      generalize hseg : Seg.token t [c] = sg at hs
      cases hs with
      | white => simp at hseg
      | comment => simp at hseg
      | token _ hs =>
        injection hseg with _ h6
        injection h6 with h6 _
        rw [h6]
        exact not_white_of_token hs
    · obtain ⟨rfl, _, h6⟩ := h3 hu
      exact .inr ⟨hu, h1, h6⟩

theorem reportedAt_of_reach {U : CharClass} {doc : Str} {pre : List Seg} {σ : LexState}
    (h : Reach U (.init doc) pre σ) : ReportedAt pre ⟨σ.offset, σ.line, σ.character⟩ ∧
      σ.lastPosition ≤ σ.offset ∧
      (∀ init last, pre = init ++ [last] → σ.lastPosition = bytes (segText init)) ∧
      (pre = [] → σ.lastPosition = 0) ∧
      ((Seg.white '\n' ∉ pre ∧ σ.character = σ.lastPosition) ∨
       (∃ u v, pre = u ++ .white '\n' :: v ∧ Seg.white '\n' ∉ v ∧
          σ.character + bytes (segText u) = σ.lastPosition)) := by
  generalize h0 : LexState.init doc = σ0 at h
  induction h with
  | refl =>
    subst h0
    refine ⟨⟨rfl, rfl, .inl ⟨rfl, rfl⟩⟩, Nat.le_refl _, by simp, by simp [LexState.init],
      .inl ⟨by simp, rfl⟩⟩
  | @snoc σ' σ'' l s hr hs ih =>
    obtain ⟨hrep, hle, hlast, hnil, hchar⟩ := ih
    obtain ⟨h1, h2, h3, h4, h5, h6, _⟩ := hs.rest
    have hoff : σ'.offset = bytes (segText l) := hrep.position
    have hl : ∀ init last, l ++ [s] = init ++ [last] → init = l ∧ last = s := by
      intro init last he
      obtain ⟨rfl, h⟩ := List.append_inj' he rfl
      simp at h
      exact ⟨rfl, h.symm⟩
    have hoff' : σ''.offset = bytes (segText (l ++ [s])) := by
      rw [h2, hoff, segText_append, bytes_append]; simp [segText]
    by_cases hn : s = .white '\n'
    · obtain ⟨h5a, h5b⟩ := h5 hn
      subst hn
      refine ⟨⟨hoff', ?_, ?_⟩, by omega, ?_, by simp, ?_⟩
      · simp only [h5a, List.count_append, List.count_singleton_self]; exact congrArg (· + 1) hrep.line
      · exact .inr (.inr ⟨l, rfl, h5b⟩)
      · intro init last he
        obtain ⟨rfl, _⟩ := hl _ _ he
        rw [h4, hoff]
      · refine .inr ⟨l, [], by simp, by simp, ?_⟩
        rw [h5b, h4, hoff]; simp
    · obtain ⟨h6a, h6b⟩ := h6 hn
      refine ⟨⟨hoff', ?_, ?_⟩, by omega, ?_, by simp, ?_⟩
      · simp only [h6a, List.count_append]
        rw [show σ'.line = _ from hrep.line, List.count_singleton]
        simp [hn]
      · refine .inr (.inl ⟨l, s, rfl, hn, ?_⟩)
        rcases hchar with ⟨ha, hb⟩ | ⟨u, v, ha, hb, hc⟩
        · refine .inl ⟨ha, ?_⟩
          simp only [h6b]; omega
        · refine .inr ⟨u, v, ha, hb, ?_⟩
          simp only [h6b]
          have : bytes (segText l) = bytes (segText u) + bytes (segText (.white '\n' :: v)) := by
            rw [ha, segText_append, bytes_append]
          omega
      · intro init last he
        obtain ⟨rfl, _⟩ := hl _ _ he
        rw [h4, hoff]
      · rcases hchar with ⟨ha, hb⟩ | ⟨u, v, ha, hb, hc⟩
        · refine .inl ⟨by simp [ha]; exact fun h => hn h.symm, ?_⟩
          rw [h6b, h4]; omega
        · refine .inr ⟨u, v ++ [s], by simp [ha], by simp [hb]; exact fun h => hn h.symm, ?_⟩
          rw [h6b, h4]; omega

/-- Exact positions: the text up to the end, or up to the point of the panic, is cut into whitespace
characters, comments and the yielded tokens; a token starts at its byte offset, on a line equal to the
number of newlines met as whitespace, and its column is measured at the start of the **previous**
segment. -/
theorem C12_C13_reported_positions (U : CharClass) (doc : Str) :
    ∃ segs left, segText segs ++ left = doc ∧ (lexDoc U doc ≠ none → left = []) ∧
      Segmentation U (segText segs) (yielded U doc) segs ∧
      ∀ pre t x post, segs = pre ++ .token t x :: post →
        ReportedAt pre t.start ∧ t.stop.line = t.start.line ∧
        t.stop.column = t.start.column + (t.stop.position - t.start.position) := by
  have hp : ∃ l τ, Path U (.init doc) l τ ∧ segTokens l = yielded U doc ∧ (lexDoc U doc ≠ none → τ.rest = []) := by
    cases hd : lexDoc U doc with
    | none =>
      obtain ⟨l, τ, h1, h2⟩ := yielded_path U doc
      exact ⟨l, τ, h1, h2, by simp⟩
    | some ts =>
      obtain ⟨l, h1, h2⟩ := lexDoc_segs.mp hd
      obtain ⟨τ, h3, h4⟩ := h1.path
      exact ⟨l, τ, h3, by rw [h2, yielded_of_lexDoc hd], fun _ => h4⟩
  obtain ⟨l, τ, hl, e, hend⟩ := hp
  have hseg := hl.segmentation
  rw [e] at hseg
  refine ⟨l, τ.rest, hl.text, hend, hseg, ?_⟩
  rintro pre t x post rfl
  obtain ⟨σ, hr, hs⟩ := hl.split
  have h1 := (reportedAt_of_reach hr).1
  cases hs with
  | cons hs _ =>
    have h3 := hs.rest.2.2.2.2.2.2 t x rfl
    refine ⟨h3 ▸ h1, ?_⟩
    cases hs with
    | token => simp

/-- `None` is returned only when the text that is left is nothing but whitespace and comments. -/
theorem C01_none_at_end (U : CharClass) {σ : LexState} (h : lexNext U σ = .none) :
    ∃ segs, Segmentation U σ.rest [] segs := by
  have : drain U σ = some [] := by rw [drain, drainFuel, h]
  obtain ⟨l, h1, h2⟩ := (drain_some_iff.mp this).segs
  obtain ⟨τ, h3, h4⟩ := h1.path
  have := h3.segmentation
  rw [h1.text, h2] at this
  exact ⟨l, this⟩

/-- newlines in the non-whitespace segments -/
def hiddenNewlines : List Seg → Nat
  | [] => 0
  | .white _ :: l => hiddenNewlines l
  | s :: l => s.text.count '\n' + hiddenNewlines l

theorem count_newlines (pre : List Seg) :
    (segText pre).count '\n' = pre.count (.white '\n') + hiddenNewlines pre := by
  induction pre with
  | nil => rfl
  | cons s l ih =>
    cases s with
    | white c =>
      simp only [segText, Seg.text, hiddenNewlines, List.count_append, ih, List.count_cons]
      by_cases hc : c = '\n' <;> simp [hc] <;> omega
    | comment x => simp [segText, Seg.text, hiddenNewlines, List.count_append, ih, List.count_cons]; omega
    | token t x => simp [segText, Seg.text, hiddenNewlines, List.count_append, ih, List.count_cons]; omega

/-- Byte position of the token exact; its line is the number of newlines before it, minus those
inside comments and string literals: it is never too large, and it is exact if there is no comment and
no string literal before the token. -/
theorem C12_lines (U : CharClass) (doc : Str) (t : STok) (ht : t ∈ yielded U doc) :
    ∃ before, before <+: doc ∧ bytes before = t.start.position ∧
      t.start.line ≤ before.count '\n' ∧
      (¬ ['(', '*'] <:+: before → '"' ∉ before → t.start.line = before.count '\n') := by
  obtain ⟨segs, left, htext, _, hseg, hpos⟩ := C12_C13_reported_positions U doc
  have hwf := C09_well_formed U doc
  rw [← hseg.tokens] at ht
  obtain ⟨pre, x, post, hsplit⟩ := mem_segTokens ht
  have hrep := (hpos pre t x post hsplit).1
  have hcount := count_newlines pre
  have hline := hrep.line
  refine ⟨segText pre, ?_, hrep.position.symm, by omega, ?_⟩
  · rw [← htext, hsplit, segText_append, List.append_assoc]; exact List.prefix_append _ _
  · intro hno hq
    have key : hiddenNewlines pre = 0 := by
      have hsub : ∀ s ∈ pre, s ∈ segs := by
        intro s hs; rw [hsplit]; simp [hs]
      have htok : ∀ s t, Seg.token t s ∈ pre → t ∈ yielded U doc := by
        intro s t hs
        obtain ⟨u, v, rfl⟩ := List.append_of_mem hs
        rw [← hseg.tokens, hsplit]
        simp [segTokens_append, segTokens]
      clear hpos hrep hcount hline hsplit htext
      induction pre with
      | nil => rfl
      | cons s l ih =>
        have hl : hiddenNewlines l = 0 := by
          apply ih
          · intro h; apply hno; simp only [segText]; exact h.trans (List.suffix_append _ _).isInfix
          · intro h; apply hq; simp only [segText]; simp [h]
          · intro s hs; exact hsub s (by simp [hs])
          · intro s t hs; exact htok s t (by simp [hs])
        cases s with
        | white c => simpa [hiddenNewlines] using hl
        | comment x =>
          exfalso
          obtain ⟨body, _, h | h⟩ := hseg.comment x (hsub _ (by simp))
          · apply hno; simp only [segText, Seg.text, h]
            exact ⟨[], body ++ segText l, by simp⟩
          · apply hno; simp only [segText, Seg.text, h]
            exact ⟨[], body ++ (['*', ')'] ++ segText l), by simp⟩
        | token t x =>
          simp only [hiddenNewlines, hl, Seg.text, Nat.add_zero]
          rw [List.count_eq_zero]
          rcases hseg.token t x (hsub _ (by simp)) with ⟨_, c, rfl, hc⟩ | ⟨hu, hpre, hx⟩
          · intro hm
            simp at hm; subst hm
            rw [(isWhite_of_ascii U (by decide)).mpr (.inr (by decide))] at hc
            simp at hc
          · have hplain := wf_text_plain (hwf t (htok x t (by simp))) (by
              rintro s hs
              apply hq
              simp only [segText, Seg.text, List.mem_append]
              left
              apply hpre.subset
              have hw := hwf t (htok x t (by simp))
              rw [hs] at hw
              obtain ⟨b, rfl, _⟩ := hw
              rw [hs]
              simp [Token.text])
            rw [hx (fun c hc => (hplain c hc).2)]
            intro hm
            exact (hplain _ hm).1 rfl
    omega

/-- a newline inside a comment is not counted -/
example (U : CharClass) : lexDoc U (str! "(*\n*)\na") = some
    [⟨⟨6, 1, 0⟩, .identifier (str! "a"), ⟨7, 1, 1⟩⟩] := by rfl

/-- Tokens directly after a one-byte whitespace character other than a newline: the column is the
true 0-based byte column on every line but the first, and one less on the first line. -/
theorem C13_after_space {pre : List Seg} {c : Char} {p : Pos} (hc : c ≠ '\n') (h1 : c.utf8Size = 1)
    (h : ReportedAt (pre ++ [.white c]) p) :
    (Seg.white '\n' ∉ pre ∧ p.column + 1 = bytes (segText (pre ++ [.white c]))) ∨
    (∃ u v, pre = u ++ .white '\n' :: v ∧ Seg.white '\n' ∉ v ∧
      p.column = bytes (segText (v ++ [.white c]))) := by
  rcases h.column with ⟨h, _⟩ | ⟨init, last, he, _, hcol⟩ | ⟨init, he, _⟩
  · simp at h
  · obtain ⟨rfl, _⟩ := List.append_inj' he rfl
    rcases hcol with ⟨a, b⟩ | ⟨u, v, a, b, d⟩
    · refine .inl ⟨a, ?_⟩
      rw [segText_append, bytes_append, b]; simp [segText, Seg.text, h1]
    · refine .inr ⟨u, v, a, b, ?_⟩
      rw [segText_append, bytes_append, d]
      have : ('\n' : Char).utf8Size = 1 := by decide
      simp [segText, Seg.text, h1, this]; omega
  · obtain ⟨_, h⟩ := List.append_inj' he rfl
    simp at h
    exact absurd h hc

/-- The claim "the column is the distance to the last newline" is false: in `(a` the `a`, which
stands at column 1, is reported at column 0. -/
theorem C13_column_lags (U : CharClass) : lexDoc U (str! "(a") = some
    [⟨⟨0, 0, 0⟩, .openParen, ⟨1, 0, 1⟩⟩, ⟨⟨1, 0, 0⟩, .identifier (str! "a"), ⟨2, 0, 1⟩⟩] := by rfl

/-- exact after a newline and a space, one less on the first line -/
example (U : CharClass) : lexDoc U (str! "x y\n z") = some
    [⟨⟨0, 0, 0⟩, .identifier (str! "x"), ⟨1, 0, 1⟩⟩,
     ⟨⟨2, 0, 1⟩, .identifier (str! "y"), ⟨3, 0, 2⟩⟩,
     ⟨⟨5, 1, 1⟩, .identifier (str! "z"), ⟨6, 1, 2⟩⟩] := by rfl

end Verif
