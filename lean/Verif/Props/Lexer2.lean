import Verif.Props.Lexer1
import Verif.Proofs.LexPrint
/-
Lexical properties C06, C07, C08, C10.
-/
namespace Verif

/-! ## C06 — nothing but layout is dropped -/

theorem scanOther_unknown {ch : Char} {r : Str} {len n : Nat}
    (h : scanOther (ch :: r) = .token .unknown len n) :
    matchInteger (ch :: r) = none ∧ isDigit ch = false ∧ isLower ch = false ∧
    isUpper ch = false ∧ ch ≠ '_' := by
  unfold scanOther regexToken at h
  repeat' split at h
  all_goals (first | (injection h with h1 h2 h3; contradiction) | (injection h with h1 h2 h3; simp at h1; done) | skip)
  have hi : matchInteger (ch :: r) = none := ‹_›
  have hreg : matchRegularId (ch :: r) = none := ‹_›
  have hcus : matchCustomId (ch :: r) = none := ‹_›
  have hsp : matchSpecialId (ch :: r) = none := ‹_›
  refine ⟨hi, ?_, ?_, ?_, ?_⟩
  · cases hd : isDigit ch with
    | false => rfl
    | true =>
      have := (digit_not hd).2.2.2.2.2.2.2
      simp [matchInteger, this.1, this.2, List.takeWhile_cons, hd] at hi
  · cases hd : isLower ch with
    | false => rfl
    | true => simp [matchRegularId, hd] at hreg
  · cases hd : isUpper ch with
    | false => rfl
    | true => simp [matchCustomId, hd] at hcus
  · rintro rfl
    simp [matchSpecialId] at hsp

theorem scan_unknown {U : CharClass} {ch : Char} {r : Str} {len n : Nat}
    (ha : ∀ d ∈ r, d.toNat < 128)
    (h : scan U ch r = .token .unknown len n) : ¬ NameChar ch ∧ ch ∉ punctuation := by
  have hcase := scan_token_cases h
  rcases hcase with hc | hc | ⟨hs, hw⟩
  · simp at hc
  · exact absurd rfl (singleTok_text hc).2.1
  · have ho : scanOther (ch :: r) = .token .unknown len n := by
      unfold scanWord at hw
      split at hw
      · simp at hw
      · split at hw
        · rename_i ht
          injection hw with h1
          exact absurd h1 (keywordTable_text _ (lookupKeyword_mem ht)).2.1
        · exact hw
    obtain ⟨h1, h2, h3, h4, h5⟩ := scanOther_unknown ho
    refine ⟨?_, ?_⟩
    · intro hn
      have := isWord_iff.mpr hn
      simp [isWord, h2, h3, h4, h5] at this
    · rw [singleTok_none_iff] at hs
      intro hm
      have hminus : ch = '-' := by
        simp [punctuation] at hm
        simp at hs
        rcases hm with h | h | h | h | h | h | h | h | h | h | h | h | h | h | h | h | h | h <;>
          first | exact h | exact absurd h h5 | (exfalso; simp [h] at hs)
      subst hminus
      have hwhite := not_white_of_token h
      cases r with
      | nil => simp [scan, hwhite] at h
      | cons d r =>
        by_cases hgt : d = '>'
        · subst hgt; simp [scan, hwhite] at h
        · have hnum := isNumeric_of_ascii U (ha d (by simp))
          by_cases hd : isDigit d = true
          · simp [matchInteger, List.takeWhile_cons, hd] at h1
          · simp [scan, hwhite, hgt, hnum, hd] at h

theorem C06_tokens_cover (U : CharClass) (doc : Str) (ha : Ascii doc) (ts : List STok)
    (h : lexDoc U doc = some ts) : Covers doc (ts.map (·.tok)) := by
  have h' : lexToks U doc = some (ts.map (·.tok)) := by simp [lexToks, h]
  clear h
  generalize ts.map (·.tok) = tks at h'
  clear ts
  generalize hn : doc.length = n
  induction n using Nat.strongRecOn generalizing doc tks with
  | _ n ih =>
    cases doc with
    | nil => rw [lexToks_nil] at h'; simp at h'; subst h'; exact .nil
    | cons ch r =>
      rw [lexToks_cons] at h'
      have hch : ch.toNat < 128 := ha ch (by simp)
      have har : Ascii r := fun c hc => ha c (by simp [hc])
      have hdrop : ∀ k, Ascii (r.drop k) := fun k c hc => har c (List.mem_of_mem_drop hc)
      have hlen : ∀ k, (r.drop k).length < n := by
        intro k; simp at hn; simp; omega
      cases hs : scan U ch r with
      | white =>
        rw [hs] at h'
        exact .white ch r tks ((isWhite_of_ascii U hch).mp (scan_white_inv hs))
          (ih r.length (by simp at hn; omega) r har tks h' rfl)
      | comment k =>
        rw [hs] at h'
        obtain ⟨r', rfl, rfl, rfl⟩ := scan_comment_inv hs
        simp only at h'
        rw [Nat.add_comm, List.drop_succ_cons] at h'
        rcases comment_cases r' with ⟨body, q, rfl, hb⟩ | hb
        · rw [commentLen_closed q hb, show body ++ '*' :: ')' :: q = (body ++ ['*', ')']) ++ q by simp,
            List.drop_left' (by simp)] at h'
          have hq : Ascii q := fun c hc => har c (by simp [hc])
          have := ih q.length (by simp at hn; omega) q hq tks h' rfl
          have := Covers.closed body q tks hb this
          simpa using this
        · rw [commentLen_open hb, List.drop_length, lexToks_nil] at h'
          simp at h'; subst h'
          exact Covers.unclosed r' hb
      | panic => rw [hs] at h'; simp at h'
      | token t len k =>
        rw [hs] at h'
        simp only [Option.map_eq_some_iff] at h'
        obtain ⟨tks', h2, rfl⟩ := h'
        have hcov := ih (r.drop k).length (hlen k) (r.drop k) (hdrop k) tks' h2 rfl
        obtain ⟨m, hm⟩ := scan_lexeme hs
        by_cases hu : t = .unknown
        · obtain ⟨_, rfl⟩ := hm.unknown hu
          subst hu
          obtain ⟨h3, h4⟩ := scan_unknown har hs
          have hw := not_white_of_token hs
          refine .unknown ch r tks' ?_ h3 h4 (by simpa using hcov)
          intro hw'
          rw [(isWhite_of_ascii U hch).mpr hw'] at hw
          simp at hw
        · obtain ⟨h3, h4, h5⟩ := hm.text hu
          have hmb : bytes m = m.length := (ha.prefix hm.pre).bytes
          have hsplit : ch :: r = t.text ++ r.drop k := by
            rw [← h3]
            have h6 : m = (ch :: r).take m.length := List.prefix_iff_eq_take.mp hm.pre
            have h7 : r.drop k = (ch :: r).drop m.length := by
              rw [← hmb, ← h5, List.drop_succ_cons]
            rw [h7]
            conv => rhs; arg 1; rw [h6]
            rw [List.take_append_drop]
          rw [hsplit]
          exact .token t _ tks' hu hcov

/-- The cover of a document with every kind of piece. -/
example (U : CharClass) : ∃ ts, lexDoc U (str! "let(* c *)?x (* open") = some ts ∧
    ts.map (·.tok) = [.let_, .unknown, .identifier (str! "x")] := ⟨_, rfl, rfl⟩

/-- False outside ASCII: after a string literal with a two-byte character, one further character
of the document vanishes without a token. -/
theorem C06_non_ascii_swallows (U : CharClass) :
    lexToks U (str! "\"é\"; x") = some [.stringLiteral (str! "\"é\""), .identifier (str! "x")] := by
  rfl

/-! ## C07 — keywords -/

theorem drop_takeWhile_head {p : Char → Bool} {s post : Str} (h : s = s.takeWhile p ++ post) :
    ∀ c, post.head? = some c → p c = false := by
  induction s with
  | nil => intro c hc; simp at h; subst h; simp at hc
  | cons a s ih =>
    rw [List.takeWhile_cons] at h
    split at h
    · simp at h; exact ih h
    · simp at h
      subst h
      intro c hc
      simp at hc; subst hc
      rename_i hp
      simpa using hp

/-- A name token was produced by the corresponding regular expression. -/
theorem scan_name {U : CharClass} {ch : Char} {r : Str} {t : Token} {len n : Nat} {m : Str}
    (h : scan U ch r = .token t len n)
    (ht : t = .identifier m ∨ t = .customIdentifier m ∨ t = .specialIdentifier m ∨
      t = .templateIdentifier m ∨ t = .number m ∨ t = .byStrWithSize m ∨ t = .hexNumber m) :
    scanWord U (ch :: r) = .token t len n ∧ scanOther (ch :: r) = .token t len n := by
  rcases scan_token_cases h with hc | hc | ⟨_, hw⟩
  · simp at hc
    rcases ht with rfl | rfl | rfl | rfl | rfl | rfl | rfl <;> simp at hc
  · unfold singleTok at hc
    split at hc <;> simp at hc <;> rcases ht with rfl | rfl | rfl | rfl | rfl | rfl | rfl <;> simp at hc
  · refine ⟨hw, ?_⟩
    unfold scanWord at hw
    split at hw
    · simp at hw
    · split at hw
      · rename_i t' hl
        injection hw with h1
        exfalso
        have hk : ∀ p ∈ keywordTable, (match p.2 with
          | .identifier _ | .customIdentifier _ | .specialIdentifier _ | .templateIdentifier _
          | .number _ | .byStrWithSize _ | .hexNumber _ => false
          | _ => true) = true := by decide
        have := hk _ (lookupKeyword_mem hl)
        rw [h1] at this
        rcases ht with rfl | rfl | rfl | rfl | rfl | rfl | rfl <;> simp at this
      · exact hw

theorem scanOther_inv {s m : Str} {t : Token} {len n : Nat} (h : scanOther s = .token t len n) :
    (t = .identifier m → matchRegularId s = some m) ∧
    (t = .customIdentifier m → matchCustomId s = some m) ∧
    (t = .specialIdentifier m → matchSpecialId s = some m) ∧
    (t = .templateIdentifier m → matchTemplateId s = some m) ∧
    (t = .number m → matchInteger s = some m) ∧
    (t = .byStrWithSize m → matchByStrSize s = some m) := by
  unfold scanOther regexToken at h
  repeat' split at h
  all_goals (injection h with h1 h2 h3; subst h1; simp_all)

/-- The word of a regular/custom/special identifier is the maximal run of `[a-zA-Z0-9_]`. -/
theorem word_match {s m : Str}
    (h : matchRegularId s = some m ∨ matchCustomId s = some m ∨ matchSpecialId s = some m) :
    m = s.takeWhile isWord := by
  rcases h with h | h | h
  · unfold matchRegularId at h
    split at h
    · split at h
      · rename_i hl
        simp at h; subst h
        rw [List.takeWhile_cons, if_pos (lower_not hl).1]
      · simp at h
    · simp at h
  · unfold matchCustomId at h
    split at h
    · split at h
      · rename_i hl
        simp at h; subst h
        rw [List.takeWhile_cons, if_pos (upper_not hl).1]
      · simp at h
    · simp at h
  · unfold matchSpecialId at h
    split at h
    · simp at h; subst h
      rw [List.takeWhile_cons, if_pos (by decide)]
    · simp at h

theorem takeWhile_congr {p q : Char → Bool} {s : Str} (h : ∀ c ∈ s, p c = q c) :
    s.takeWhile p = s.takeWhile q := by
  induction s with
  | nil => rfl
  | cons c s ih =>
    rw [List.takeWhile_cons, List.takeWhile_cons, h c (by simp), ih (fun d hd => h d (by simp [hd]))]

/-- In an ASCII document no identifier token is spelled like a keyword. -/
theorem C07_keywords_reserved (U : CharClass) (doc : Str) (ha : Ascii doc) (ts : List STok)
    (h : lexDoc U doc = some ts) (t : STok) (ht : t ∈ ts) (s : Str)
    (hs : t.tok = .identifier s ∨ t.tok = .customIdentifier s ∨ t.tok = .specialIdentifier s) :
    s ∉ keywords := by
  obtain ⟨l, hl, rfl⟩ := lexDoc_segs.mp h
  obtain ⟨a, x, b, rfl⟩ := mem_segTokens ht
  obtain ⟨σ, hr, hseg⟩ := hl.split
  have hrest : Ascii σ.rest := fun c hc => ha c (hr.suffix.subset hc)
  cases hseg with
  | cons hstep _ =>
    cases hstep with
    | @token ch r tk len n hr hsc =>
      rw [hr] at hrest
      simp only at hs
      have hname := scan_name (m := s) hsc (by rcases hs with h | h | h <;> simp [h])
      have hinv := scanOther_inv (m := s) hname.2
      have hm : s = (ch :: r).takeWhile isWord := by
        apply word_match
        rcases hs with h | h | h
        · exact .inl (hinv.1 h)
        · exact .inr (.inl (hinv.2.1 h))
        · exact .inr (.inr (hinv.2.2.1 h))
      have hrun : (ch :: r).takeWhile U.isIdent = s := by
        rw [hm]; exact takeWhile_congr fun c hc => isIdent_of_ascii U (hrest c hc)
      intro hmem
      obtain ⟨⟨kw, kt⟩, hk, rfl⟩ := List.mem_map.mp (mem_keywords.mp hmem)
      have hsw := scanWord_run U (ch :: r) (by
        rw [hrun]; exact ascii_word (keywordTable_word _ hk))
      rw [hrun, lookupKeyword_table _ hk, hname.1] at hsw
      simp only at hsw
      injection hsw with h1
      have hkk : ∀ p ∈ keywordTable, ∀ m, p.2 ≠ .identifier m ∧ p.2 ≠ .customIdentifier m ∧
          p.2 ≠ .specialIdentifier m := by
        intro p hp m
        have hk : ∀ p ∈ keywordTable, (match p.2 with
          | .identifier _ | .customIdentifier _ | .specialIdentifier _ => false
          | _ => true) = true := by decide
        have := hk p hp
        refine ⟨?_, ?_, ?_⟩ <;> (intro he; rw [he] at this; simp at this)
      have := hkk _ hk kw
      rw [h1] at hs
      rcases hs with h | h | h
      · exact this.1 h
      · exact this.2.1 h
      · exact this.2.2 h

/-- A keyword not directly followed by a name character yields its token, in every document. -/
theorem C07_keyword_recognised (U : CharClass) (kw : Str) (t : Token)
    (hk : (kw, t) ∈ keywordSpellings) (σ : LexState) (q : Str) (hr : σ.rest = kw ++ q)
    (hq : ∀ c, q.head? = some c → U.isIdent c = false) :
    ∃ st σ', lexNext U σ = .item st σ' ∧ st.tok = t ∧ σ'.rest = q ∧
      st.start.position = σ.offset ∧ st.stop.position = σ.offset + bytes kw := by
  obtain ⟨c, w, rfl, hs⟩ := scan_keyword U (keywordTable_spec.1 _ hk) q hq
  refine ⟨⟨⟨σ.offset, σ.line, σ.character⟩, t,
    Pos.withEnd ⟨σ.offset, σ.line, σ.character⟩ (σ.offset + bytes (c :: w))⟩,
    σ.advance c (w ++ q) w.length, ?_, ?_, ?_, ?_, ?_⟩
  · rw [lexNext_eq]
    unfold lexStep
    rw [hr]
    simp only [List.cons_append, hs]
  · rfl
  · simp [LexState.advance]
  · rfl
  · rfl

example : (str! "transition", Token.transition) ∈ keywordSpellings := by decide
/-- outside ASCII keywords are not reserved: at the end of a document `endé` gives `end` as an
identifier -/
theorem C07_non_ascii_witness (U : CharClass) (h : U.alnum 'é' = true) :
    ∃ rest, lexToks U (str! "endé") = some (.identifier (str! "end") :: rest) := by
  have h1 : U.isIdent 'é' = true := by simp [CharClass.isIdent, CharClass.isAlnum, isAscii, h]
  have hi : ∀ c, isWord c = true → U.isIdent c = true := fun c hc => isIdent_word U hc
  have hsc : scan U 'e' (str! "ndé") = .token (.identifier (str! "end")) 3 2 := by
    rw [scan_word U (by decide) (by decide)]
    have hk : keywordSlice U (str! "endé") = some (str! "endé") := by
      simp [keywordSlice, wordIndex, h1, hi 'e' (by decide), hi 'n' (by decide), hi 'd' (by decide)]
    unfold scanWord
    rw [hk]
    rfl
  rw [lexToks_cons, hsc]
  have : lexToks U (List.drop 2 (str! "ndé")) ≠ none := by
    intro hn
    have hn' : lexDoc U ['é'] = none := by simpa [lexToks] using hn
    obtain ⟨pre, σ, hr, hp⟩ := (C03_document U _).mp hn'
    obtain ⟨ch, r, hrest, _, ⟨c, hc, hcf⟩, _⟩ := (C03_step_panics_iff U σ).mp hp
    have := hr.suffix.subset (hrest ▸ hc)
    simp [LexState.init] at this
    subst this
    rw [h1] at hcf; simp at hcf
  obtain ⟨ts, hts⟩ := Option.ne_none_iff_exists'.mp this
  exact ⟨ts, by simp only [hts]; rfl⟩

/-! ## C08 — maximal munch -/

/-- Names, numbers and sized byte-string types extend as far as possible. -/
theorem C08_maximal (U : CharClass) (doc : Str) (t : STok) (ht : t ∈ yielded U doc) (m : Str) :
    (t.tok = .identifier m ∨ t.tok = .customIdentifier m ∨ t.tok = .specialIdentifier m ∨
      t.tok = .templateIdentifier m →
      ∃ pre post, doc = pre ++ m ++ post ∧ bytes pre = t.start.position ∧
        ∀ c, post.head? = some c → ¬ NameChar c) ∧
    (t.tok = .number m ∨ t.tok = .byStrWithSize m →
      ∃ pre post, doc = pre ++ m ++ post ∧ bytes pre = t.start.position ∧
        ∀ c, post.head? = some c → ¬ Digit c) := by
  obtain ⟨l, τ, hl, e⟩ := yielded_path U doc
  rw [← e] at ht
  obtain ⟨a, x, b, rfl⟩ := mem_segTokens ht
  obtain ⟨σ, hr, hseg⟩ := hl.split
  have hdoc : doc = segText a ++ σ.rest := hr.inv.1
  have hoff : σ.offset = bytes (segText a) := by have := hr.inv.2; simpa [LexState.init] using this
  have key : ∀ (p : Char → Bool) (m : Str),
      (∀ post, σ.rest = m ++ post → ∀ c, post.head? = some c → p c = false) → m <+: σ.rest →
      ∃ pre post, doc = pre ++ m ++ post ∧ bytes pre = σ.offset ∧
        ∀ c, post.head? = some c → p c = false := by
    intro p m hp ⟨q, hq⟩
    exact ⟨segText a, q, by rw [hdoc, ← hq]; simp, hoff.symm, hp q hq.symm⟩
  have word : ∀ c, isWord c = false → ¬ NameChar c := by
    intro c hc hn; rw [isWord_iff.mpr hn] at hc; simp at hc
  have digit : ∀ c, isDigit c = false → ¬ Digit c := by
    intro c hc hn; rw [isDigit_iff.mpr hn] at hc; simp at hc
  cases hseg with
  | cons hstep _ =>
    cases hstep with
    | @token ch r tk len n hr' hsc =>
      rw [hr'] at key
      refine ⟨?_, ?_⟩
      · intro hs
        simp only at hs
        have hname := scan_name (m := m) hsc (by
          rcases hs with h | h | h | h <;> simp [h])
        have hinv := scanOther_inv (m := m) hname.2
        have : ∃ pre post, doc = pre ++ m ++ post ∧ bytes pre = σ.offset ∧
            ∀ c, post.head? = some c → isWord c = false := by
          by_cases hT : tk = .templateIdentifier m
          · have hm := hinv.2.2.2.1 hT
            apply key
            · intro post he
              unfold matchTemplateId at hm
              split at hm
              · rename_i c s he2
                split at hm
                · simp at hm; subst hm
                  rw [he2] at he
                  simp at he
                  exact drop_takeWhile_head he
                · simp at hm
              · simp at hm
            · exact (matchTemplateId_spec hm).1
          · have hm : matchRegularId (ch :: r) = some m ∨ matchCustomId (ch :: r) = some m ∨
                matchSpecialId (ch :: r) = some m := by
              rcases hs with h | h | h | h
              · exact .inl (hinv.1 h)
              · exact .inr (.inl (hinv.2.1 h))
              · exact .inr (.inr (hinv.2.2.1 h))
              · exact absurd h hT
            have hw := word_match hm
            apply key
            · intro post he
              apply drop_takeWhile_head (p := isWord) (s := ch :: r)
              rw [← hw]; exact he
            · rw [hw]; exact List.takeWhile_prefix _
        obtain ⟨pre, post, h1, h2, h3⟩ := this
        exact ⟨pre, post, h1, h2, fun c hc => word c (h3 c hc)⟩
      · intro hs
        simp only at hs
        have hname := scan_name (m := m) hsc (by
          rcases hs with h | h <;> simp [h])
        have hinv := scanOther_inv (m := m) hname.2
        have : ∃ pre post, doc = pre ++ m ++ post ∧ bytes pre = σ.offset ∧
            ∀ c, post.head? = some c → isDigit c = false := by
          rcases hs with hN | hB
          · have hm := hinv.2.2.2.2.1 hN
            apply key
            · intro post he
              simp only [matchInteger] at hm
              split at hm
              · split at hm
                · simp at hm
                · simp at hm; subst hm
                  simp at he
                  exact drop_takeWhile_head he
              · split at hm
                · simp at hm
                · injection hm with hm; subst hm
                  exact drop_takeWhile_head he
            · exact (matchInteger_spec hm).1
          · have hm := hinv.2.2.2.2.2 hB
            apply key
            · intro post he
              unfold matchByStrSize at hm
              split at hm
              · rename_i s he2
                split at hm
                · simp at hm
                · simp at hm; subst hm
                  rw [he2] at he
                  simp at he
                  exact drop_takeWhile_head he
              · simp at hm
            · exact (matchByStrSize_spec hm).1
        obtain ⟨pre, post, h1, h2, h3⟩ := this
        exact ⟨pre, post, h1, h2, fun c hc => digit c (h3 c hc)⟩

/-- ... but hexadecimal literals, numbers and `ByStr` can be cut off in the middle of a run of name
characters, without an error. -/
theorem C08_splits (U : CharClass) :
    lexToks U (str! "0xabc") = some [.hexNumber (str! "0xab"), .identifier (str! "c")] ∧
    lexToks U (str! "12ab") = some [.number (str! "12"), .identifier (str! "ab")] ∧
    lexToks U (str! "ByStrFoo") = some [.byStr, .customIdentifier (str! "Foo")] := ⟨rfl, rfl, rfl⟩

example (U : CharClass) : ∃ ts, lexDoc U (str! "foo_1 'Ab2(_x,-12)ByStr20") = some ts ∧
    ts.map (·.tok) = [.identifier (str! "foo_1"), .templateIdentifier (str! "'Ab2"), .openParen,
      .specialIdentifier (str! "_x"), .comma, .number (str! "-12"), .closeParen,
      .byStrWithSize (str! "ByStr20")] := ⟨_, rfl, rfl⟩

/-! ## C10 — lexing inverts printing -/

theorem C10_lex_rendering (U : CharClass) (ts : List Token) (s : Str) (h : Rendering ts s) :
    ∃ sts, lexDoc U s = some sts ∧ sts.map (·.tok) = ts := by
  have : lexToks U s = some ts := by
    induction h with
    | nil lay hl =>
      have := lexToks_layout U hl []
      rw [List.append_nil] at this
      rw [this, lexToks_nil]
    | cons lay t s ts hl hp hs _ ih =>
      rw [lexToks_layout U hl, lexToks_printable U hp hs, ih]; rfl
  simpa [lexToks] using this

/-- Non-empty layout separates any token from what follows. -/
theorem C10_layout_separates (t : Token) (lay q : Str) (h : Layout lay) (hne : lay ≠ []) :
    Separated t (lay ++ q) := by
  have hsp : ∀ c : Char, (AsciiWhite c ∨ c = '(') → c.toNat < 128 ∧ ¬ NameChar c ∧ c ≠ '>' ∧ c ≠ '=' ∧
      c ≠ '*' ∧ ¬ Digit c := by
    intro c hc
    have hcases : c.toNat = 32 ∨ (9 ≤ c.toNat ∧ c.toNat ≤ 13) ∨ c.toNat = 40 := by
      rcases hc with (rfl | h) | rfl
      · left; rfl
      · exact .inr (.inl h)
      · right; right; rfl
    have hw : isWord c = false := by
      cases h : isWord c with
      | false => rfl
      | true =>
        exfalso
        simp [isWord, isLower, isUpper, isDigit] at h
        rcases h with h | h
        · omega
        · subst h; revert hcases; decide
    have hn : ¬ NameChar c := by intro h; rw [isWord_iff.mpr h] at hw; simp at hw
    refine ⟨by omega, hn, ?_, ?_, ?_, fun h => hn (digit_name h)⟩
    · rintro rfl; revert hcases; decide
    · rintro rfl; revert hcases; decide
    · rintro rfl; revert hcases; decide
  intro c hc
  have hc' : AsciiWhite c ∨ c = '(' := by
    cases h with
    | nil => exact absurd rfl hne
    | white d s hd _ => simp at hc; subst hc; exact .inl hd
    | comment body s _ _ => simp at hc; subst hc; exact .inr rfl
  obtain ⟨h1, h2, h3, h4, h5, h6⟩ := hsp c hc'
  exact ⟨h1, fun _ => h2, fun _ => h3, fun _ => h4, fun _ => h5, fun _ => ⟨h3, h6⟩⟩

/-- Any sequence of printable tokens, each followed by any non-empty layout. -/
theorem C10_with_layout (U : CharClass) (l : List (Token × Str))
    (h : ∀ p ∈ l, Printable p.1 ∧ Layout p.2 ∧ p.2 ≠ []) :
    ∃ sts, lexDoc U (l.flatMap fun p => p.1.text ++ p.2) = some sts ∧
      sts.map (·.tok) = l.map (·.1) := by
  have : lexToks U (l.flatMap fun p => p.1.text ++ p.2) = some (l.map (·.1)) := by
    induction l with
    | nil => exact lexToks_nil U
    | cons p l ih =>
      obtain ⟨h1, h2, h3⟩ := h p (by simp)
      simp only [List.flatMap_cons, List.append_assoc, List.map_cons]
      rw [lexToks_printable U h1 (C10_layout_separates _ _ _ h2 h3), lexToks_layout U h2,
        ih (fun p hp => h p (by simp [hp]))]
      rfl
  simpa [lexToks] using this

/-- two renderings of the same tokens lex to the same tokens -/
example : Rendering [.let_, .identifier (str! "x"), .equals, .stringLiteral (str! "\"a\\\"\"")]
    (str! " let(* ( *)x=\"a\\\"\"\n") := by
  have hsp : Layout [' '] := .white _ _ (.inl rfl) .nil
  have hc : Layout (str! "(* ( *)") := .comment (str! " ( ") [] (by unfold NoClose; decide) .nil
  have hend : Layout ['\n'] := .white _ _ (.inr (by decide)) .nil
  have hsep : ∀ (t : Token) (c : Char) (q : Str), c.toNat < 128 →
      ((t.wordy = true → ¬ NameChar c) ∧ (t = .equals → c ≠ '>') ∧ (t = .colon → c ≠ '=') ∧
        (t = .openParen → c ≠ '*') ∧ (t = .minus → c ≠ '>' ∧ ¬ Digit c)) → Separated t (c :: q) := by
    intro t c q h1 h2 d hd
    simp at hd; subst hd; exact ⟨h1, h2⟩
  have nm : ∀ c, isWord c = false → ¬ NameChar c := by
    intro c hc hn; rw [isWord_iff.mpr hn] at hc; simp at hc
  have r4 : Rendering [] ['\n'] := .nil _ hend
  have r3 := Rendering.cons [] (.stringLiteral (str! "\"a\\\"\"")) _ [] .nil
    ⟨str! "a\\\"", rfl, .char _ _ (by decide) (by decide) (.escape _ _ (by decide) .nil),
      by unfold Ascii; decide⟩
    (hsep _ _ _ (by decide) ⟨by simp [Token.wordy], by simp, by simp, by simp, by simp⟩) r4
  have r2 := Rendering.cons [] .equals _ _ .nil trivial
    (hsep _ '"' _ (by decide) ⟨by simp [Token.wordy], by simp, by simp, by simp, by simp⟩) r3
  have r1 := Rendering.cons (str! "(* ( *)") (.identifier (str! "x")) _ _ hc
    ⟨⟨'x', [], rfl, by decide, by decide, by simp⟩, by decide⟩
    (hsep _ '=' _ (by decide) ⟨fun _ => nm _ (by decide), by simp, by simp, by simp, by simp⟩) r2
  exact Rendering.cons [' '] .let_ _ _ hsp trivial
    (hsep _ '(' _ (by decide) ⟨fun _ => nm _ (by decide), by simp, by simp, by simp, by simp⟩) r1

end Verif
