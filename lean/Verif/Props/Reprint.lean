import Verif.Props.RoundTrip
import Verif.Props.Display
import Verif.Props.Layout
import Verif.Proofs.StripDerives
import Verif.Spec.Editing
/-
C44: every public parser of the grammar.  C45: the displayed text of identifiers.
C46: printing the tokens of a document again.
-/
namespace Verif

/-! ## C44 — the other public parsers -/

/-- Every generated parser accepts exactly the token lists its nonterminal derives, with the derived
value. -/
theorem C44_exact (n : NT) (hn : n.base = true) (toks : List STok) (v : Val n) :
    parseAs n toks = some v ↔ Derives n toks v := by
  have hg : good n = true := by
    cases n <;> first | rfl | (simp [NT.base] at hn)
  constructor
  · intro h
    unfold parseAs at h
    split at h
    · rename_i p' s' hp
      split at h
      · rename_i hs
        injection h with h; subst h
        obtain ⟨w, ⟨h1, _⟩, hd⟩ := parse_sound _ _ _ _ _ hp
        simp [hs] at h1
        subst h1; exact hd
      · simp at h
    · simp at h
  · intro h
    have hr := (rank_le n hg).2
    have := comp (parseFuel toks) n toks v h hg (by simp only [parseFuel]; omega) default [] Follow.nil
    rw [List.append_nil] at this
    simp [parseAs, this]

/-- The parser `from_str` uses is the one of `Program`. -/
theorem C44_program (toks : List STok) : parseAs .program toks = parseProgram toks := by
  unfold parseAs parseProgram
  cases parse (parseFuel toks) .program ⟨default, toks⟩ <;> rfl

/-- Rejection means that there is no derivation. -/
theorem C44_rejected_iff (n : NT) (hn : n.base = true) (toks : List STok) :
    parseAs n toks = none ↔ ¬ ∃ v, Derives n toks v := by
  constructor
  · rintro h ⟨v, hv⟩
    rw [(C44_exact n hn toks v).mpr hv] at h
    simp at h
  · intro h
    cases hp : parseAs n toks with
    | none => rfl
    | some p => exact absurd ⟨p, (C44_exact n hn toks p).mp hp⟩ h

/-- Positions do not matter for acceptance, and the values agree up to positions. -/
theorem C44_positions (n : NT) (hn : n.base = true) (a b : List STok) (h : bare a = bare b) :
    (parseAs n a).map (stripV n) = (parseAs n b).map (stripV n) := by
  have key : ∀ {a b : List STok} {p}, bare a = bare b → parseAs n a = some p →
      ∃ q, parseAs n b = some q ∧ stripV n q = stripV n p := by
    intro a b p h hp
    have d := (C44_exact n hn _ _).mp hp
    obtain ⟨q, e⟩ := d.relift b h.symm
    refine ⟨q, (C44_exact n hn _ _).mpr e, ?_⟩
    have d' := d.strip
    have e' := e.strip
    rw [strip_eq_of_bare h] at d'
    exact C17_unambiguous_category n hn _ _ _ e' d'
  cases ha : parseAs n a with
  | some p =>
    obtain ⟨q, hq, e⟩ := key h ha
    rw [hq, Option.map_some, Option.map_some, e]
  | none =>
    cases hb : parseAs n b with
    | none => rfl
    | some q =>
      obtain ⟨p, hp, _⟩ := key h.symm hb
      rw [ha] at hp
      simp at hp

/-- A type, an expression and a statement, each read by its own parser. -/
example : (parseAs .scillaType ((lexDoc demoU (str! "Map ByStr20 (List Uint32) -> 'A")).getD [])).isSome ∧
    (parseAs .fullExpr ((lexDoc demoU (str! "let x = Uint32 1 in builtin add x x")).getD [])).isSome ∧
    (parseAs .statement ((lexDoc demoU (str! "x <- & y.z[a]")).getD [])).isSome ∧
    (parseAs .statement ((lexDoc demoU (str! "x <- ")).getD [])).isNone := by
  decide +kernel

/-! ## C45 — the displayed text of identifiers -/

/-- The texts of the tokens, written one after the other. -/
def texts (w : List STok) : Str := w.flatMap fun t => t.tok.text

theorem display_byteString {w : List STok} {v : Val .byteString} (d : Derives .byteString w v) :
    v.display = texts w := by
  cases d with
  | byteString h => subst h; simp [texts, NodeByteStr.display, Token.text]; rfl

theorem display_typeName {w : List STok} {v : Val .typeName} (d : Derives .typeName w v) :
    v.node.display = texts w := by
  cases d with
  | typeNameBytes d => exact display_byteString d
  | typeNameEvent h => subst h; rfl
  | typeNameCustom d =>
    cases d with
    | customId h => subst h; simp [texts]; rfl

/-- C45: the displayed text of a type name, of a possibly qualified type name, or of a variable is the text
of its tokens. -/
theorem C45_display (w : List STok) :
    (∀ v, Derives .byteString w v → v.display = texts w) ∧
    (∀ v, Derives .typeName w v → v.node.display = texts w) ∧
    (∀ v, Derives .metaId w v → v.node.display = texts w) ∧
    (∀ v, Derives .varId w v → v.node.display = texts w) := by
  refine ⟨fun v => display_byteString, fun v => display_typeName, fun v d => ?_, fun v d => ?_⟩
  · cases d with
    | metaName d => exact display_typeName d
    | metaNamespace h d1 d2 =>
      subst h
      have e1 := display_typeName d1
      have e2 := display_typeName d2
      simp only [texts] at e1 e2
      simp only [mkW, NodeMetaIdentifier.display, e1, e2, texts, List.flatMap_append, List.flatMap_cons]
      rfl
    | metaHexspace h d1 d2 =>
      subst h
      have e2 := display_typeName d2
      simp only [texts] at e2
      cases d1 with
      | hexNumber h =>
        subst h
        simp [mkW, NodeMetaIdentifier.display, e2, texts, Token.text]
    | metaByStr h => subst h; rfl
  · cases d with
    | varName d => cases d with
      | regularId h => subst h; simp [texts]; rfl
    | varSpecial d => cases d with
      | specialId h => subst h; simp [texts]; rfl
    | varNamespace h d1 d2 =>
      subst h
      have e1 := display_typeName d1
      simp only [texts] at e1
      cases d2 with
      | regularId h =>
        subst h
        simp [mkW, NodeVariableIdentifier.display, e1, texts, Token.text]

/-! ## C46 — printing the tokens again -/

/-- In an ASCII document the tokens, except unrecognised characters and string literals that end in an
escaped quote, are determined by their spelling. -/
theorem lexed_printable (U : CharClass) (doc : Str) (ha : Ascii doc) (ts : List STok)
    (h : lexDoc U doc = some ts) (t : STok) (ht : t ∈ ts) (hs : t.tok.steady) : Printable t.tok := by
  have hwf := C09_well_formed U doc t (by rw [yielded_of_lexDoc h]; exact ht)
  have hkw := C07_keywords_reserved U doc ha ts h t ht
  have htext := C05_text_is_slice U doc t (by rw [yielded_of_lexDoc h]; exact ht) hs.1
  have key : ∀ m, (t.tok = .customIdentifier m → ¬ str! "ByStr" <+: m) ∧
      (t.tok = .specialIdentifier m → m ≠ ['_']) := by
    obtain ⟨l, hl, rfl⟩ := lexDoc_segs.mp h
    obtain ⟨a, x, b, rfl⟩ := mem_segTokens ht
    obtain ⟨σ, hr, hseg⟩ := hl.split
    have hrest : Ascii σ.rest := fun c hc => ha c (hr.suffix.subset hc)
    cases hseg with
    | cons hstep _ =>
      cases hstep with
      | @token ch r tk len n hr hsc =>
        rw [hr] at hrest
        intro m
        refine ⟨fun e => ?_, fun e => ?_⟩
        · simp only at e
          have hname := scan_name (m := m) hsc (by simp [e])
          have hm := word_match (s := ch :: r) (.inr (.inl ((scanOther_inv (m := m) hname.2).2.1 e)))
          rintro ⟨q, hq⟩
          have hpre : str! "ByStr" <+: ch :: r :=
            ⟨q ++ (ch :: r).dropWhile isWord, by
              rw [← List.append_assoc, hq, hm]; exact List.takeWhile_append_dropWhile⟩
          obtain ⟨z, hz⟩ := hpre
          have h2 := hname.2
          rw [← hz, e] at h2
          simp only [List.cons_append, List.nil_append, scanOther, matchByStrSize, startsByStr] at h2
          cases hd : z.takeWhile isDigit with
          | nil => rw [hd] at h2; simp at h2
          | cons d ds => rw [hd] at h2; simp [regexToken] at h2
        · simp only at e
          have hname := scan_name (m := m) hsc (by simp [e])
          have hm := word_match (s := ch :: r) (.inr (.inr ((scanOther_inv (m := m) hname.2).2.2.1 e)))
          have h0 := (scanOther_inv (m := m) hname.2).2.2.1 e
          rintro rfl
          have hch : ch = '_' := by
            unfold matchSpecialId at h0
            split at h0
            · simp_all
            · simp at h0
          subst hch
          have hx : (r.head?.map U.isIdent).getD false = false := by
            cases r with
            | nil => rfl
            | cons d r =>
              rw [List.takeWhile_cons, if_pos (by decide), List.takeWhile_cons] at hm
              split at hm
              · simp at hm
              · rename_i hd
                have := isIdent_of_ascii U (hrest d (by simp))
                simp [this, hd]
          have hw : U.isWhite '_' = false := by
            cases hw : U.isWhite '_' with
            | false => rfl
            | true => unfold scan at hsc; rw [if_pos hw] at hsc; simp at hsc
          unfold scan at hsc
          rw [hw, hx] at hsc
          simp [e] at hsc
  obtain ⟨hu, hst⟩ := hs
  cases htk : t.tok <;> rw [htk] at hwf hkw htext <;>
    first
      | (exact absurd htk hu)
      | exact hwf
      | skip
  · exact ⟨hwf, hkw _ (.inl rfl)⟩
  · exact ⟨hwf, hkw _ (.inr (.inl rfl)), (key _).1 htk⟩
  · exact ⟨hwf, (key _).2 htk⟩
  · rename_i m
    obtain ⟨b, hb, hsb⟩ := hst m htk
    refine ⟨b, hb, hsb, ?_⟩
    obtain ⟨pre, post, hd, _⟩ := htext
    intro c hc
    refine ha c ?_
    rw [hd]
    simp [Token.text, hb, hc]

theorem separated_dot (t : Token) (q : Str) : Separated t ('.' :: q) := by
  intro c hc
  simp at hc; subst hc
  have : ¬ NameChar '.' := by rw [← isWord_iff]; decide
  have h2 : ¬ Digit '.' := by rw [← isDigit_iff]; decide
  exact ⟨by decide, fun _ => this, fun _ => by decide, fun _ => by decide, fun _ => by decide,
    fun _ => ⟨by decide, h2⟩⟩

theorem dot_separated {q : Str} (h : ∀ c, q.head? = some c → c.toNat < 128) : Separated .dot q := by
  intro c hc
  exact ⟨h c hc, fun h => by simp [Token.wordy] at h, fun h => by simp at h, fun h => by simp at h,
    fun h => by simp at h, fun h => by simp at h⟩

/-- The word of an identifier: one token, or two tokens with a dot in between. -/
theorem id_word {n : NT} (hn : n = .byteString ∨ n = .typeName ∨ n = .metaId ∨ n = .varId) {w : List STok}
    {v : Val n} (d : Derives n w v) :
    (∃ t, bare w = [t]) ∨ ∃ t u, bare w = [t, .dot, u] := by
  have h1 : ∀ {w : List STok} {v : Val .byteString}, Derives .byteString w v → ∃ t, bare w = [t] := by
    intro w v d; cases d with | byteString h => subst h; exact ⟨_, rfl⟩
  have h2 : ∀ {w : List STok} {v : Val .typeName}, Derives .typeName w v → ∃ t, bare w = [t] := by
    intro w v d
    cases d with
    | typeNameBytes d => exact h1 d
    | typeNameEvent h => subst h; exact ⟨_, rfl⟩
    | typeNameCustom d => cases d with | customId h => subst h; exact ⟨_, rfl⟩
  rcases hn with rfl | rfl | rfl | rfl
  · exact .inl (h1 d)
  · exact .inl (h2 d)
  · cases d with
    | metaName d => exact .inl (h2 d)
    | metaNamespace h d1 d2 =>
      subst h
      obtain ⟨a, ha⟩ := h2 d1
      obtain ⟨b, hb⟩ := h2 d2
      exact .inr ⟨a, b, by simp [ha, hb]⟩
    | metaHexspace h d1 d2 =>
      subst h
      obtain ⟨b, hb⟩ := h2 d2
      cases d1 with
      | hexNumber h => subst h; exact .inr ⟨_, b, by simp [hb]; rfl⟩
    | metaByStr h => subst h; exact .inl ⟨_, rfl⟩
  · cases d with
    | varName d => cases d with | regularId h => subst h; exact .inl ⟨_, rfl⟩
    | varSpecial d => cases d with | specialId h => subst h; exact .inl ⟨_, rfl⟩
    | varNamespace h d1 d2 =>
      subst h
      obtain ⟨a, ha⟩ := h2 d1
      cases d2 with
      | regularId h => subst h; exact .inr ⟨a, _, by simp [ha]; rfl⟩

/-- C45: the displayed text of an identifier of an ASCII document, read again by the same parser, gives the
same identifier (up to positions). -/
theorem C45_read_again (U : CharClass) (doc : Str) (ha : Ascii doc) (ts : List STok)
    (h : lexDoc U doc = some ts) (w : List STok) (hw : w <:+: ts) (n : NT)
    (hn : n = .byteString ∨ n = .typeName ∨ n = .metaId ∨ n = .varId) (v : Val n) (d : Derives n w v) :
    ∃ ts' v', lexDoc U (texts w) = some ts' ∧ parseAs n ts' = some v' ∧ stripV n v' = stripV n v := by
  have hb : n.base = true := by rcases hn with rfl | rfl | rfl | rfl <;> rfl
  have hp : ∀ t ∈ bare w, Printable t := by
    intro t ht
    obtain ⟨u, hu, rfl⟩ := List.mem_map.mp ht
    refine lexed_printable U doc ha ts h u (hw.subset hu) ⟨?_, ?_⟩
    · have := d.usable u hu
      intro e; rw [e] at this; simp [neverUsed] at this
    · intro s hs
      exfalso
      have : ∀ t ∈ bare w, ∀ s, t ≠ .stringLiteral s := by
        have k1 : ∀ {w : List STok} {v : Val .byteString}, Derives .byteString w v →
            ∀ t ∈ bare w, ∀ s, t ≠ .stringLiteral s := by
          intro w v d; cases d with | byteString h => subst h; simp [bare]
        have k2 : ∀ {w : List STok} {v : Val .typeName}, Derives .typeName w v →
            ∀ t ∈ bare w, ∀ s, t ≠ .stringLiteral s := by
          intro w v d
          cases d with
          | typeNameBytes d => exact k1 d
          | typeNameEvent h => subst h; simp [bare]
          | typeNameCustom d => cases d with | customId h => subst h; simp [bare]
        rcases hn with rfl | rfl | rfl | rfl
        · exact k1 d
        · exact k2 d
        · cases d with
          | metaName d => exact k2 d
          | metaNamespace h d1 d2 =>
            subst h
            intro t ht s
            simp only [bare_append, bare_cons, List.mem_append, List.mem_cons] at ht
            rcases ht with ht | rfl | ht
            · exact k2 d1 t ht s
            · simp
            · exact k2 d2 t ht s
          | metaHexspace h d1 d2 =>
            subst h
            intro t ht s
            simp only [bare_append, bare_cons, List.mem_append, List.mem_cons] at ht
            rcases ht with ht | rfl | ht
            · cases d1 with | hexNumber h => subst h; simp [bare] at ht; subst ht; simp
            · simp
            · exact k2 d2 t ht s
          | metaByStr h => subst h; simp [bare]
        · cases d with
          | varName d => cases d with | regularId h => subst h; simp [bare]
          | varSpecial d => cases d with | specialId h => subst h; simp [bare]
          | varNamespace h d1 d2 =>
            subst h
            intro t ht s
            simp only [bare_append, bare_cons, List.mem_append, List.mem_cons] at ht
            rcases ht with ht | rfl | ht
            · exact k2 d1 t ht s
            · simp
            · cases d2 with | regularId h => subst h; simp [bare] at ht; subst ht; simp
      exact this u.tok (List.mem_map_of_mem hu) s hs
  have htexts : texts w = (bare w).flatMap Token.text := by
    simp [texts, bare, List.flatMap_map]
  have hascii : ∀ t ∈ bare w, Ascii t.text := by
    intro t ht
    obtain ⟨u, hu, rfl⟩ := List.mem_map.mp ht
    have hus := d.usable u hu
    obtain ⟨pre, post, hd, _⟩ := C05_text_is_slice U doc u
      (by rw [yielded_of_lexDoc h]; exact hw.subset hu) (by intro e; rw [e] at hus; simp [neverUsed] at hus)
    intro c hc
    refine ha c ?_
    rw [hd]; simp only [List.mem_append]; exact .inl (.inr hc)
  have hr : Rendering (bare w) (texts w) := by
    rw [htexts]
    rcases id_word hn d with ⟨t, e⟩ | ⟨t, u, e⟩ <;> rw [e] at hp hascii ⊢
    · simp only [List.flatMap_cons, List.flatMap_nil, List.append_nil]
      exact Rendering.one (hp t (by simp))
    · simp only [List.flatMap_cons, List.flatMap_nil, List.append_nil]
      refine Rendering.tok (hp t (by simp)) (Rendering.tok (hp _ (by simp)) (Rendering.one (hp u (by simp)))
        (dot_separated ?_)) (separated_dot _ _)
      intro c hc
      exact hascii u (by simp) c (List.mem_of_mem_head? hc)
  obtain ⟨ts', h1, h2⟩ := C10_lex_rendering U _ _ hr
  have hpos := C44_positions n hb w ts' (by simpa [bare] using h2.symm)
  rw [(C44_exact n hb w v).mpr d, Option.map_some] at hpos
  cases hq : parseAs n ts' with
  | none => rw [hq] at hpos; simp at hpos
  | some v' => rw [hq] at hpos; simp at hpos; exact ⟨ts', v', h1, hq, hpos.symm⟩

/-- C46: printing the tokens of an ASCII document again, each followed by a blank, and reading the
print-out gives the same tokens and the same result; string literals that end in an escaped quote are
excluded. -/
theorem C46_reprint (env : Env) (doc : Str) (ha : Ascii doc) (ts : List STok)
    (h : lexDoc env.chars doc = some ts) (hs : ∀ t ∈ ts, t.tok.steady) :
    (∃ ts', lexDoc env.chars (spaced (ts.map (·.tok))) = some ts' ∧
      ts'.map (·.tok) = ts.map (·.tok)) ∧
    SameResult (fromStr env doc) (fromStr env (spaced (ts.map (·.tok)))) := by
  have hr : Rendering (ts.map (·.tok)) (spaced (ts.map (·.tok))) := by
    refine spaced_rendering _ ?_
    intro t ht
    obtain ⟨u, hu, rfl⟩ := List.mem_map.mp ht
    exact lexed_printable env.chars doc ha ts h u hu (hs u hu)
  obtain ⟨ts', h1, h2⟩ := C10_lex_rendering env.chars _ _ hr
  exact ⟨⟨ts', h1, h2⟩, (C18_documents env _ _ ts ts' h h1 h2.symm).1⟩

/-- C46: for an accepted document the print-out is accepted with the same contract. -/
theorem C46_reprint_contract (env : Env) (doc : Str) (ha : Ascii doc) (ts : List STok)
    (h : lexDoc env.chars doc = some ts)
    (hs : ∀ t ∈ ts, ∀ s, t.tok = .stringLiteral s → Strict s) (c : Contract) (hc : fromStr env doc = .ok c) :
    fromStr env (spaced (ts.map (·.tok))) = .ok c := by
  have hst : ∀ t ∈ ts, t.tok.steady := by
    intro t ht
    refine ⟨fun hu => ?_, hs t ht⟩
    obtain ⟨m, hm⟩ := C14_unknown_rejected env doc t (by rw [yielded_of_lexDoc h]; exact ht) (.inl hu)
    rw [hc] at hm
    simp at hm
  obtain ⟨⟨ts', h1, h2⟩, _⟩ := C46_reprint env doc ha ts h hst
  exact ((C18_same_contract env _ _ ts ts' h h1 h2.symm) c).mp hc

/-- The hypotheses hold for a program with comments and a string literal. -/
theorem C46_witness : ∃ ts, lexDoc demoU
      (str! "scilla_version 0(*v*)contract C()field s:String=\"a\\\"b\"") = some ts ∧
    ts.map (·.tok) = [.scillaVersion, .number (str! "0"), .contract, .customIdentifier (str! "C"), .openParen,
      .closeParen, .field, .identifier (str! "s"), .colon, .customIdentifier (str! "String"), .equals,
      .stringLiteral (str! "\"a\\\"b\"")] ∧
    spaced (ts.map (·.tok)) =
      str! "scilla_version 0 contract C ( ) field s : String = \"a\\\"b\" " := by
  refine ⟨_, rfl, ?_, ?_⟩ <;> decide +kernel

end Verif
