import Verif.Proofs.LexAscii
/-
Position-free view of the lexer.
-/
namespace Verif

/-- The kinds and texts of the tokens of a document; `none` = panic. -/
def lexToks (U : CharClass) (doc : Str) : Option (List Token) :=
  (lexDoc U doc).map (·.map (·.tok))

theorem drain_toks (U : CharClass) (σ : LexState) :
    (drain U σ).map (·.map (·.tok)) = lexToks U σ.rest := by
  unfold lexToks
  rw [lexDoc_eq_drain]
  generalize hn : σ.rest.length = n
  induction n using Nat.strongRecOn generalizing σ with
  | _ n ih =>
    -- generalise: any two states with the same rest
    have key : ∀ σ2 : LexState, σ2.rest = σ.rest →
        (drain U σ2).map (·.map (·.tok)) = match σ.rest with
          | [] => some []
          | ch :: r => match scan U ch r with
            | .white => (drain U (.init r)).map (·.map (·.tok))
            | .comment k => (drain U (.init (r.drop k))).map (·.map (·.tok))
            | .token t _ k => ((drain U (.init (r.drop k))).map (·.map (·.tok))).map (t :: ·)
            | .panic => none := by
      intro σ2 h2
      rw [drain_eq]
      unfold lexStep
      rw [h2]
      cases hr : σ.rest with
      | nil => rfl
      | cons ch r =>
        have hlen : r.length < n := by rw [hr] at hn; simp at hn; omega
        simp only
        cases hs : scan U ch r with
        | white =>
          by_cases hnl : (ch == '\n') = true
          · simp only [hnl, if_true]
            rw [ih _ (by simpa [LexState.advance] using hlen) _ rfl]
            simp [LexState.advance]
          · simp only [hnl]
            rw [if_neg (by simp)]
            simp only
            rw [ih _ (by simpa [LexState.advance] using hlen) _ rfl]
            simp [LexState.advance]
        | comment k =>
          simp only
          have hk : ((σ2.advance ch r k).rest).length < n := by
            simp [LexState.advance]; omega
          rw [ih _ hk _ rfl]
          simp [LexState.advance]
        | token t len k =>
          simp only
          have hk : ((σ2.advance ch r k).rest).length < n := by
            simp [LexState.advance]; omega
          have := ih _ hk _ rfl
          simp only [LexState.advance] at this
          simp only [LexState.advance]
          rw [← this]
          simp [Option.map_map, Function.comp_def]
        | panic => rfl
    rw [key σ rfl, key (.init σ.rest) rfl]

theorem lexToks_nil (U : CharClass) : lexToks U [] = some [] := by
  have := drain_toks U (.init [])
  change _ = lexToks U [] at this
  rw [← this, drain_eq]; rfl

theorem lexToks_cons (U : CharClass) (ch : Char) (r : Str) :
    lexToks U (ch :: r) = match scan U ch r with
      | .white => lexToks U r
      | .comment k => lexToks U (r.drop k)
      | .token t _ k => (lexToks U (r.drop k)).map (t :: ·)
      | .panic => none := by
  have := drain_toks U (.init (ch :: r))
  change _ = lexToks U (ch :: r) at this
  rw [← this, drain_eq]
  clear this
  unfold lexStep
  simp only [LexState.init]
  cases hs : scan U ch r with
  | white =>
    by_cases hnl : (ch == '\n') = true
    · simp only [hnl, if_true]; rw [drain_toks]; simp [LexState.advance]
    · simp only [hnl]; rw [if_neg (by simp)]; simp only; rw [drain_toks]; simp [LexState.advance]
  | comment k => simp only; rw [drain_toks]; simp [LexState.advance]
  | token t len k =>
    simp only
    have := drain_toks U (LexState.advance ⟨ch :: r, 0, 0, 0, 0⟩ ch r k)
    rw [show (LexState.advance ⟨ch :: r, 0, 0, 0, 0⟩ ch r k).rest = r.drop k from rfl] at this
    rw [← this]
    simp [Option.map_map, Function.comp_def]
  | panic => rfl

/-! ### Up to a panic -/

/-- kinds and texts of the tokens yielded up to the end or a panic -/
def toksUpTo (U : CharClass) (doc : Str) : List Token := (yielded U doc).map (·.tok)

theorem tokensFrom_toks (U : CharClass) (σ : LexState) :
    (tokensFrom U σ).map (·.tok) = toksUpTo U σ.rest := by
  change _ = (tokensFrom U (.init σ.rest)).map (·.tok)
  generalize hn : σ.rest.length = n
  induction n using Nat.strongRecOn generalizing σ with
  | _ n ih =>
    have key : ∀ σ2 : LexState, σ2.rest = σ.rest →
        (tokensFrom U σ2).map (·.tok) = match σ.rest with
          | [] => []
          | ch :: r => match scan U ch r with
            | .white => (tokensFrom U (.init r)).map (·.tok)
            | .comment k => (tokensFrom U (.init (r.drop k))).map (·.tok)
            | .token t _ k => t :: (tokensFrom U (.init (r.drop k))).map (·.tok)
            | .panic => [] := by
      intro σ2 h2
      rw [tokensFrom_step]
      unfold lexStep
      rw [h2]
      cases hr : σ.rest with
      | nil => rfl
      | cons ch r =>
        have hlen : r.length < n := by rw [hr] at hn; simp at hn; omega
        simp only
        cases hs : scan U ch r with
        | white =>
          by_cases hnl : (ch == '\n') = true
          · simp only [hnl, if_true]
            rw [ih _ (by simpa [LexState.advance] using hlen) _ rfl]
            simp [LexState.advance]
          · simp only [hnl]
            rw [if_neg (by simp)]
            simp only
            rw [ih _ (by simpa [LexState.advance] using hlen) _ rfl]
            simp [LexState.advance]
        | comment k =>
          simp only
          have hk : ((σ2.advance ch r k).rest).length < n := by
            simp [LexState.advance]; omega
          rw [ih _ hk _ rfl]
          simp [LexState.advance]
        | token t len k =>
          simp only
          have hk : ((σ2.advance ch r k).rest).length < n := by
            simp [LexState.advance]; omega
          have := ih _ hk _ rfl
          simp only [LexState.advance] at this
          simp only [LexState.advance]
          rw [← this]
          simp
        | panic => rfl
    rw [key σ rfl, key (.init σ.rest) rfl]

theorem toksUpTo_cons (U : CharClass) (ch : Char) (r : Str) :
    toksUpTo U (ch :: r) = match scan U ch r with
      | .white => toksUpTo U r
      | .comment k => toksUpTo U (r.drop k)
      | .token t _ k => t :: toksUpTo U (r.drop k)
      | .panic => [] := by
  have := tokensFrom_toks U (.init (ch :: r))
  change _ = toksUpTo U (ch :: r) at this
  rw [← this, tokensFrom_step]
  clear this
  unfold lexStep
  simp only [LexState.init]
  cases hs : scan U ch r with
  | white =>
    by_cases hnl : (ch == '\n') = true
    · simp only [hnl, if_true]; rw [tokensFrom_toks]; simp [LexState.advance]
    · simp only [hnl]; rw [if_neg (by simp)]; simp only; rw [tokensFrom_toks]; simp [LexState.advance]
  | comment k => simp only; rw [tokensFrom_toks]; simp [LexState.advance]
  | token t len k =>
    simp only
    have := tokensFrom_toks U (LexState.advance ⟨ch :: r, 0, 0, 0, 0⟩ ch r k)
    rw [show (LexState.advance ⟨ch :: r, 0, 0, 0, 0⟩ ch r k).rest = r.drop k from rfl] at this
    rw [← this]
    simp
  | panic => rfl

/-- two texts with the same tokens, up to the end of both or up to a panic in both -/
def SameLex (U : CharClass) (a b : Str) : Prop :=
  toksUpTo U a = toksUpTo U b ∧ lexToks U a = lexToks U b

/-! ### Comments -/

theorem noClose_cons {c : Char} {s : Str} (h : NoClose (c :: s)) : NoClose s := by
  intro hs
  exact h (hs.trans (List.suffix_cons c s).isInfix)

theorem noClose_head {c d : Char} {s : Str} (h : NoClose (c :: d :: s)) : ¬ (c = '*' ∧ d = ')') := by
  rintro ⟨rfl, rfl⟩
  exact h ⟨[], s, rfl⟩

theorem commentLen_closed {body : Str} (q : Str) (h : NoClose body) :
    commentLen (body ++ '*' :: ')' :: q) = body.length + 2 := by
  induction body with
  | nil => simp [commentLen]
  | cons c s ih =>
    have hn := ih (noClose_cons h)
    simp only [List.cons_append, commentLen]
    rw [if_neg, hn]
    · simp; omega
    · cases s with
      | nil => simp
      | cons d s => simpa using noClose_head h

theorem commentLen_open {body : Str} (h : NoClose body) : commentLen body = body.length := by
  induction body with
  | nil => rfl
  | cons c s ih =>
    have hn := ih (noClose_cons h)
    simp only [commentLen]
    rw [if_neg, hn]
    · simp; omega
    · cases s with
      | nil => simp
      | cons d s => simpa using noClose_head h

/-- every text after `(*` is closed or open -/
theorem comment_cases (s : Str) :
    (∃ body q, s = body ++ '*' :: ')' :: q ∧ NoClose body) ∨ NoClose s := by
  induction s with
  | nil => right; intro h; have := h.length_le; simp at this
  | cons c s ih =>
    by_cases hc : c = '*' ∧ s.head? = some ')'
    · obtain ⟨rfl, hs⟩ := hc
      cases s with
      | nil => simp at hs
      | cons d q =>
        simp at hs; subst hs
        exact .inl ⟨[], q, rfl, fun h => by have := h.length_le; simp at this⟩
    · have step : ∀ b : Str, b <+: s → NoClose b → NoClose (c :: b) := by
        rintro b hb hn ⟨u, v, he⟩
        cases u with
        | nil =>
          simp at he
          obtain ⟨rfl, rfl⟩ := he
          obtain ⟨w, rfl⟩ := hb
          simp at hc
        | cons x u =>
          simp at he
          exact hn ⟨u, v, by simpa using he.2⟩
      rcases ih with ⟨body, q, rfl, hb⟩ | hn
      · exact .inl ⟨c :: body, q, rfl, step _ (List.prefix_append _ _) hb⟩
      · exact .inr (step _ (List.prefix_refl _) hn)

theorem scan_open (U : CharClass) (r : Str) :
    scan U '(' ('*' :: r) = .comment (1 + commentLen r) := by
  have : U.isWhite '(' = false := by
    cases h : U.isWhite '(' with
    | false => rfl
    | true =>
      rw [isWhite_of_ascii U (by decide)] at h
      revert h; unfold AsciiWhite; decide
  simp [scan, this]

theorem lexToks_comment (U : CharClass) (body q : Str) (h : NoClose body) :
    lexToks U ('(' :: '*' :: (body ++ '*' :: ')' :: q)) = lexToks U q := by
  rw [lexToks_cons, scan_open, commentLen_closed q h]
  simp only
  congr 1
  have : 1 + (body.length + 2) = (body.length + 2) + 1 := by omega
  rw [this, List.drop_succ_cons]
  have h2 : body ++ '*' :: ')' :: q = (body ++ ['*', ')']) ++ q := by simp
  rw [h2]
  apply List.drop_left'
  simp

theorem sameLex_comment (U : CharClass) (body q : Str) (h : NoClose body) :
    SameLex U ('(' :: '*' :: (body ++ '*' :: ')' :: q)) q := by
  refine ⟨?_, lexToks_comment U body q h⟩
  rw [toksUpTo_cons, scan_open, commentLen_closed q h]
  simp only
  congr 1
  have : 1 + (body.length + 2) = (body.length + 2) + 1 := by omega
  rw [this, List.drop_succ_cons]
  have h2 : body ++ '*' :: ')' :: q = (body ++ ['*', ')']) ++ q := by simp
  rw [h2]
  apply List.drop_left'
  simp

theorem lexToks_open_comment (U : CharClass) (body : Str) (h : NoClose body) :
    lexToks U ('(' :: '*' :: body) = some [] := by
  rw [lexToks_cons, scan_open, commentLen_open h]
  simp only
  have : 1 + body.length = body.length + 1 := by omega
  rw [this, List.drop_succ_cons, List.drop_length, lexToks_nil]

/-- scans that produce comments are comments -/
theorem scan_comment_inv {U : CharClass} {ch : Char} {r : Str} {n : Nat}
    (h : scan U ch r = .comment n) : ∃ r', ch = '(' ∧ r = '*' :: r' ∧ n = 1 + commentLen r' := by
  have hw : ∀ s, scanWord U s ≠ .comment n := by
    intro s
    unfold scanWord
    split
    · simp
    · split
      · simp
      · exact scanOther_not.2.1 n
  unfold scan at h
  repeat' split at h
  all_goals try simp at h
  · rename_i hc
    simp at hc
    obtain ⟨rfl, hc⟩ := hc
    cases r with
    | nil => simp at hc
    | cons d r => simp at hc; subst hc; exact ⟨r, rfl, rfl, by simpa using h.symm⟩
  · exact absurd h (hw _)

theorem scan_white_inv {U : CharClass} {ch : Char} {r : Str}
    (h : scan U ch r = .white) : U.isWhite ch = true := by
  have hw : ∀ s, scanWord U s ≠ .white := by
    intro s
    unfold scanWord
    split
    · simp
    · split
      · simp
      · exact scanOther_not.1
  unfold scan at h
  repeat' split at h
  all_goals first | assumption | simp at h | exact absurd h (hw _)

theorem not_white_of_token {U : CharClass} {ch : Char} {r : Str} {t : Token} {len n : Nat}
    (h : scan U ch r = .token t len n) : U.isWhite ch = false := by
  unfold scan at h
  split at h
  · simp at h
  · simp_all

/-- The token segment of a step. -/
theorem Steps.token_spec {U : CharClass} {σ σ' : LexState} {t : STok} {x : Str}
    (h : Steps U σ (.token t x) σ') :
    ∃ m, m <+: x ∧ t.stop.position = t.start.position + bytes m ∧
      (t.tok ≠ .unknown → m = t.tok.text ∧ m ≠ [] ∧ (Ascii m → x = m)) ∧
      (t.tok = .unknown → m = [] ∧ ∃ c, x = [c]) ∧ WellFormed t.tok := by
  cases h with
  | @token ch r tk len n hr hs =>
    obtain ⟨m, hm⟩ := scan_lexeme hs
    have hwf := scan_wf hs
    by_cases hu : tk = .unknown
    · obtain ⟨rfl, h0⟩ := hm.unknown hu
      subst h0
      refine ⟨[], List.nil_prefix, ?_, fun hne => absurd hu hne, fun _ => ⟨rfl, ch, by simp⟩, hwf⟩
      simp [← hm.len_eq]
    · obtain ⟨h1, h2, h3⟩ := hm.text hu
      have hx : ch :: r.take n = (ch :: r).take (n + 1) := by simp
      refine ⟨m, ?_, ?_, fun _ => ⟨h1, h2, ?_⟩, fun hu' => absurd hu' hu, hwf⟩
      · rw [hx, h3]
        exact List.prefix_take_iff.mpr ⟨hm.pre, length_le_bytes m⟩
      · simp [hm.len_eq]
      · intro ha
        rw [hx, h3, ha.bytes]
        exact (List.prefix_iff_eq_take.mp hm.pre).symm

/-! ### newlines in tokens -/

theorem nameChar_ne_newline {c : Char} (h : NameChar c) : c ≠ '\n' ∧ c.toNat < 128 := by
  have := isWord_iff.mpr h
  refine ⟨?_, isWord_ascii this⟩
  rintro rfl
  revert this; decide

theorem digit_name {c : Char} (h : Digit c) : NameChar c := .inr (.inr (.inl h))

theorem hex_name {c : Char} (h : HexDigit c) : NameChar c := by
  rcases h with h | h | h
  · exact digit_name h
  · refine .inl ⟨h.1, ?_⟩
    rw [char_le_iff] at *; exact Nat.le_trans h.2 (by decide)
  · refine .inr (.inl ⟨h.1, ?_⟩)
    rw [char_le_iff] at *; exact Nat.le_trans h.2 (by decide)

/-- Non-string lexemes are ASCII without newlines. -/
theorem wf_text_plain {t : Token} (h : WellFormed t) (hs : ∀ s, t ≠ .stringLiteral s) :
    ∀ c ∈ t.text, c ≠ '\n' ∧ c.toNat < 128 := by
  have hn : ∀ s : Str, (∀ c ∈ s, NameChar c ∨ c ∈ ['-', '\'']) → ∀ c ∈ s, c ≠ '\n' ∧ c.toNat < 128 := by
    intro s hs c hc
    rcases hs c hc with h | h
    · exact nameChar_ne_newline h
    · simp at h
      rcases h with rfl | rfl <;> decide
  have hbs : ∀ c ∈ str! "ByStr", NameChar c := by
    intro c hc; rw [← isWord_iff]; revert c; decide
  cases t with
  | stringLiteral s => exact absurd rfl (hs s)
  | byStrWithSize s =>
    obtain ⟨ds, rfl, _, hd⟩ := h
    refine hn _ fun c hc => .inl ?_
    rcases List.mem_append.mp hc with h | h
    · exact hbs c h
    · exact digit_name (hd c h)
  | number s =>
    obtain ⟨sg, ds, rfl, hsg, _, hd⟩ := h
    refine hn _ fun c hc => ?_
    rcases List.mem_append.mp hc with h | h
    · rcases hsg with rfl | rfl
      · simp at h
      · simp at h; subst h; exact .inr (by simp)
    · exact .inl (digit_name (hd c h))
  | hexNumber s =>
    obtain ⟨x, ds, rfl, hx, hd, _⟩ := h
    refine hn _ fun c hc => .inl ?_
    simp only [Token.text, List.mem_cons] at hc
    rcases hc with rfl | rfl | hc
    · rw [← isWord_iff]; decide
    · rw [← isWord_iff]; rcases hx with rfl | rfl <;> decide
    · exact hex_name (hd c hc)
  | identifier s =>
    obtain ⟨x, w, rfl, h1, h2, hd⟩ := h
    refine hn _ fun c hc => .inl ?_
    rcases List.mem_cons.mp hc with rfl | h
    · exact .inl ⟨h1, h2⟩
    · exact hd c h
  | customIdentifier s =>
    obtain ⟨x, w, rfl, h1, h2, hd⟩ := h
    refine hn _ fun c hc => .inl ?_
    rcases List.mem_cons.mp hc with rfl | h
    · exact .inr (.inl ⟨h1, h2⟩)
    · exact hd c h
  | templateIdentifier s =>
    obtain ⟨x, w, rfl, h1, h2, hd⟩ := h
    refine hn _ fun c hc => ?_
    simp only [Token.text, List.mem_cons] at hc
    rcases hc with rfl | rfl | h
    · exact .inr (by simp)
    · exact .inl (.inr (.inl ⟨h1, h2⟩))
    · exact .inl (hd c h)
  | specialIdentifier s =>
    obtain ⟨w, rfl, hd⟩ := h
    refine hn _ fun c hc => .inl ?_
    rcases List.mem_cons.mp hc with rfl | h
    · exact .inr (.inr (.inr rfl))
    · exact hd c h
  | comment s => exact h.elim
  | typeName s => exact h.elim
  | whitespace => exact h.elim
  | _ => decide

end Verif
