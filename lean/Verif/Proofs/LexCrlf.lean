import Verif.Proofs.LexToks
import Verif.Spec.Rename
import Verif.Spec.LineEnds
/-
The lexer on a text with Windows line ends.
-/
namespace Verif

theorem crlf_nil : crlf [] = [] := rfl
theorem crlf_nl (s : Str) : crlf ('\n' :: s) = '\r' :: '\n' :: crlf s := rfl
theorem crlf_cons {c : Char} (h : c ≠ '\n') (s : Str) : crlf (c :: s) = c :: crlf s := by
  simp [crlf, h]
theorem crlf_append (a b : Str) : crlf (a ++ b) = crlf a ++ crlf b := by
  simp [crlf]

theorem crlf_eq_self {s : Str} (h : '\n' ∉ s) : crlf s = s := by
  induction s with
  | nil => rfl
  | cons c s ih =>
    simp only [List.mem_cons, not_or] at h
    rw [crlf_cons (fun e => h.1 e.symm), ih h.2]

theorem crlf_ascii {s : Str} (h : Ascii s) : Ascii (crlf s) := by
  intro c hc
  simp only [crlf, List.mem_flatMap] at hc
  obtain ⟨d, hd, hc⟩ := hc
  split at hc
  · simp only [List.mem_cons, List.not_mem_nil, or_false] at hc
    rcases hc with rfl | rfl <;> decide
  · simp only [List.mem_cons, List.not_mem_nil, or_false] at hc
    subst hc; exact h _ hd

theorem takeWhile_crlf {p : Char → Bool} (h1 : p '\r' = false) (h2 : p '\n' = false) (s : Str) :
    (crlf s).takeWhile p = s.takeWhile p := by
  induction s with
  | nil => rfl
  | cons c s ih =>
    by_cases h : c = '\n'
    · subst h; simp [crlf_nl, h1, h2]
    · rw [crlf_cons h, List.takeWhile_cons, List.takeWhile_cons, ih]

theorem all_crlf {p : Char → Bool} (h1 : p '\r' = false) (h2 : p '\n' = false) (s : Str) :
    (crlf s).all p = s.all p := by
  induction s with
  | nil => rfl
  | cons c s ih =>
    by_cases h : c = '\n'
    · subst h; simp [crlf_nl, h1, h2]
    · rw [crlf_cons h, List.all_cons, List.all_cons, ih]

theorem head_crlf (x : Char) (h1 : x ≠ '\r') (h2 : x ≠ '\n') (s : Str) :
    ((crlf s).head? == some x) = (s.head? == some x) := by
  cases s with
  | nil => rfl
  | cons c s =>
    by_cases h : c = '\n'
    · subst h
      have e1 : ('\r' == x) = false := by simpa using h1.symm
      have e2 : ('\n' == x) = false := by simpa using h2.symm
      simp [crlf_nl, e1, e2]
    · rw [crlf_cons h]; rfl

theorem headP_crlf {p : Char → Bool} (h1 : p '\r' = false) (h2 : p '\n' = false) (s : Str) :
    ((crlf s).head?.map p).getD false = (s.head?.map p).getD false := by
  cases s with
  | nil => rfl
  | cons c s =>
    by_cases h : c = '\n'
    · subst h; simp [crlf_nl, h1, h2]
    · rw [crlf_cons h]; rfl

theorem sliceTo_sameTail {w : Str} : ∀ {n : Nat} (q q' : Str), n ≤ bytes w →
    sliceTo (w ++ q) n = sliceTo (w ++ q') n := by
  induction w with
  | nil =>
    intro n q q' h
    have : n = 0 := by simpa [bytes] using h
    subst this; simp [sliceTo]
  | cons c w ih =>
    intro n q q' h
    cases n with
    | zero => simp [sliceTo]
    | succ n =>
      simp only [List.cons_append, sliceTo]
      split
      · rw [ih q q']
        have : bytes (c :: w) = c.utf8Size + bytes w := by
          have := bytes_append [c] w
          simpa [bytes] using this
        omega
      · rfl

theorem isIdent_cr (U : CharClass) : U.isIdent '\r' = false := by
  rw [isIdent_of_ascii U (by decide)]; decide
theorem isIdent_nl (U : CharClass) : U.isIdent '\n' = false := by
  rw [isIdent_of_ascii U (by decide)]; decide

theorem wordIndex_crlf (U : CharClass) (s : Str) : wordIndex U (crlf s) = wordIndex U s := by
  rw [wordIndex, wordIndex, all_crlf (isIdent_cr U) (isIdent_nl U), takeWhile_crlf (isIdent_cr U) (isIdent_nl U)]

/-- the keyword candidate of the changed text: the same, or both are the whole text and no keyword -/
theorem keywordSlice_crlf (U : CharClass) (s : Str) :
    keywordSlice U (crlf s) = keywordSlice U s ∨
      (keywordSlice U (crlf s) = some (crlf s) ∧ keywordSlice U s = some s ∧
        lookupKeyword (crlf s) = none ∧ lookupKeyword s = none) := by
  rw [keywordSlice, keywordSlice, wordIndex_crlf]
  split
  · rename_i h
    left
    have hf : s.all U.isIdent = false := by
      cases e : s.all U.isIdent with
      | false => rfl
      | true => simp [wordIndex, e] at h
    have hw : wordIndex U s = (s.takeWhile U.isIdent).length := by simp [wordIndex, hf]
    obtain ⟨q, hq⟩ := List.takeWhile_prefix (p := U.isIdent) (l := s)
    have hc : crlf s = s.takeWhile U.isIdent ++ crlf q := by
      have e : crlf s = crlf (s.takeWhile U.isIdent ++ q) := by rw [hq]
      rw [e, crlf_append, crlf_eq_self]
      intro hm
      have := mem_takeWhile_imp hm
      rw [isIdent_nl] at this; exact absurd this (by decide)
    have e := sliceTo_sameTail (w := s.takeWhile U.isIdent) (crlf q) q (length_le_bytes _)
    rw [hw, hc, e, hq]
  · by_cases hall : s.all U.isIdent = true
    · left
      rw [crlf_eq_self]
      intro hm
      have := List.all_eq_true.mp hall _ hm
      rw [isIdent_nl] at this; exact absurd this (by decide)
    · right
      refine ⟨rfl, rfl, ?_, ?_⟩
      all_goals
        apply lookupKeyword_none_of
        right
      · have h2 : ¬ (crlf s).all U.isIdent = true := by rwa [all_crlf (isIdent_cr U) (isIdent_nl U)]
        rw [List.all_eq_true] at h2
        obtain ⟨c, h2⟩ := Classical.not_forall.mp h2
        obtain ⟨hc, hi⟩ := Classical.not_imp.mp h2
        refine ⟨c, hc, ?_⟩
        cases hw : isWord c with
        | false => rfl
        | true => exact absurd (isIdent_word U hw) hi
      · rw [List.all_eq_true] at hall
        obtain ⟨c, h2⟩ := Classical.not_forall.mp hall
        obtain ⟨hc, hi⟩ := Classical.not_imp.mp h2
        refine ⟨c, hc, ?_⟩
        cases hw : isWord c with
        | false => rfl
        | true => exact absurd (isIdent_word U hw) hi

/-! ### The matchers -/

theorem isDigit_cr : isDigit '\r' = false := by decide
theorem isDigit_nl : isDigit '\n' = false := by decide
theorem isWord_cr : isWord '\r' = false := by decide
theorem isWord_nl : isWord '\n' = false := by decide

theorem matchInteger_crlf (s : Str) : matchInteger (crlf s) = matchInteger s := by
  cases s with
  | nil => rfl
  | cons c s =>
    by_cases h : c = '\n'
    · subst h; simp [crlf_nl, matchInteger, isDigit_cr, isDigit_nl]
    · rw [crlf_cons h, matchInteger, matchInteger, takeWhile_crlf isDigit_cr isDigit_nl, ← crlf_cons h,
        takeWhile_crlf isDigit_cr isDigit_nl]

theorem hexPairs_crlf (s : Str) : hexPairs (crlf s) = hexPairs s := by
  have h1 : isHex '\r' = false := by decide
  have h2 : isHex '\n' = false := by decide
  induction s using hexPairs.induct with
  | case1 a b s hab ih =>
    simp only [Bool.and_eq_true] at hab
    have ha : a ≠ '\n' := by rintro rfl; rw [h2] at hab; exact absurd hab.1 (by decide)
    have hb : b ≠ '\n' := by rintro rfl; rw [h2] at hab; exact absurd hab.2 (by decide)
    rw [crlf_cons ha, crlf_cons hb, hexPairs, hexPairs, ih]
  | case2 a b s hab =>
    rw [hexPairs, if_neg hab]
    by_cases ha : a = '\n'
    · subst ha; rw [crlf_nl, hexPairs, h1]; simp
    · rw [crlf_cons ha]
      by_cases hb : b = '\n'
      · subst hb; rw [crlf_nl, hexPairs, h1]; simp
      · rw [crlf_cons hb, hexPairs, if_neg hab]
  | case3 s hs =>
    match s, hs with
    | [], _ => rfl
    | [a], _ =>
      by_cases ha : a = '\n'
      · subst ha; rw [crlf_nl, hexPairs, h1]; simp [hexPairs]
      · rw [crlf_cons ha]; rfl
    | a :: b :: s, hs => exact absurd rfl (hs a b s)

theorem matchHex_crlf (s : Str) : matchHex (crlf s) = matchHex s := by
  cases s with
  | nil => rfl
  | cons c s =>
    by_cases h : c = '0'
    · subst h
      rw [crlf_cons (by decide)]
      cases s with
      | nil => rfl
      | cons x s =>
        by_cases hx : x = '\n'
        · subst hx; rw [crlf_nl]; simp [matchHex]
        · rw [crlf_cons hx]; simp only [matchHex, hexPairs_crlf]
    · have : ∀ (c : Char) (s : Str), c ≠ '0' → matchHex (c :: s) = none := by
        intro c s hc
        unfold matchHex; split
        · rename_i e; simp only [List.cons.injEq] at e; exact absurd e.1 hc
        · rfl
      rw [this c s h]
      by_cases hn : c = '\n'
      · subst hn; rw [crlf_nl]; exact this _ _ (by decide)
      · rw [crlf_cons hn]; exact this _ _ h

theorem matchRegularId_crlf (s : Str) : matchRegularId (crlf s) = matchRegularId s := by
  cases s with
  | nil => rfl
  | cons c s =>
    by_cases h : c = '\n'
    · subst h; rw [crlf_nl]; simp [matchRegularId, isLower]
    · rw [crlf_cons h, matchRegularId, matchRegularId, takeWhile_crlf isWord_cr isWord_nl]

theorem matchCustomId_crlf (s : Str) : matchCustomId (crlf s) = matchCustomId s := by
  cases s with
  | nil => rfl
  | cons c s =>
    by_cases h : c = '\n'
    · subst h; rw [crlf_nl]; simp [matchCustomId, isUpper]
    · rw [crlf_cons h, matchCustomId, matchCustomId, takeWhile_crlf isWord_cr isWord_nl]

theorem matchTemplateId_crlf (s : Str) : matchTemplateId (crlf s) = matchTemplateId s := by
  cases s with
  | nil => rfl
  | cons c s =>
    by_cases h : c = '\''
    · subst h
      rw [crlf_cons (by decide)]
      cases s with
      | nil => rfl
      | cons x s =>
        by_cases hx : x = '\n'
        · subst hx; rw [crlf_nl]; simp [matchTemplateId, isUpper]
        · rw [crlf_cons hx]; simp only [matchTemplateId, takeWhile_crlf isWord_cr isWord_nl]
    · have : ∀ (c : Char) (s : Str), c ≠ '\'' → matchTemplateId (c :: s) = none := by
        intro c s hc
        unfold matchTemplateId; split
        · rename_i e; simp only [List.cons.injEq] at e; exact absurd e.1 hc
        · rfl
      rw [this c s h]
      by_cases hn : c = '\n'
      · subst hn; rw [crlf_nl]; exact this _ _ (by decide)
      · rw [crlf_cons hn]; exact this _ _ h

theorem matchSpecialId_crlf (s : Str) : matchSpecialId (crlf s) = matchSpecialId s := by
  cases s with
  | nil => rfl
  | cons c s =>
    by_cases h : c = '_'
    · subst h
      rw [crlf_cons (by decide)]
      simp only [matchSpecialId, takeWhile_crlf isWord_cr isWord_nl]
    · have : ∀ (c : Char) (s : Str), c ≠ '_' → matchSpecialId (c :: s) = none := by
        intro c s hc
        unfold matchSpecialId; split
        · rename_i e; simp only [List.cons.injEq] at e; exact absurd e.1 hc
        · rfl
      rw [this c s h]
      by_cases hn : c = '\n'
      · subst hn; rw [crlf_nl]; exact this _ _ (by decide)
      · rw [crlf_cons hn]; exact this _ _ h

theorem startsByStr_iff (s : Str) : startsByStr s = true ↔ str! "ByStr" <+: s := by
  unfold startsByStr
  split
  · simp [List.cons_prefix_cons]
  · rename_i h
    simp only [Bool.false_eq_true, false_iff]
    rintro ⟨q, rfl⟩
    exact h q rfl

theorem prefix_crlf {p : Str} (h1 : '\n' ∉ p) (h2 : '\r' ∉ p) (s : Str) : p <+: crlf s ↔ p <+: s := by
  induction p generalizing s with
  | nil => simp
  | cons c p ih =>
    simp only [List.mem_cons, not_or] at h1 h2
    cases s with
    | nil => simp [crlf_nil]
    | cons d s =>
      by_cases hd : d = '\n'
      · subst hd
        rw [crlf_nl]
        simp [List.cons_prefix_cons, Ne.symm h1.1, Ne.symm h2.1]
      · rw [crlf_cons hd, List.cons_prefix_cons, List.cons_prefix_cons, ih h1.2 h2.2]

theorem startsByStr_crlf (s : Str) : startsByStr (crlf s) = startsByStr s := by
  rw [Bool.eq_iff_iff, startsByStr_iff, startsByStr_iff, prefix_crlf (by decide) (by decide)]

theorem matchByStrSize_crlf (s : Str) : matchByStrSize (crlf s) = matchByStrSize s := by
  have none_of : ∀ s : Str, ¬ str! "ByStr" <+: s → matchByStrSize s = none := by
    intro s h
    unfold matchByStrSize
    split
    · rename_i q
      exact absurd ⟨q, rfl⟩ h
    · rfl
  by_cases h : str! "ByStr" <+: s
  · obtain ⟨q, rfl⟩ := h
    rw [crlf_append, crlf_eq_self (by decide)]
    simp only [List.cons_append, List.nil_append, matchByStrSize, takeWhile_crlf isDigit_cr isDigit_nl]
  · rw [none_of s h, none_of]
    rwa [prefix_crlf (by decide) (by decide)]

theorem stringBody_quote (s : Str) : stringBody ('"' :: s) = some ['"'] := by
  rw [stringBody.eq_def]; simp

theorem stringBody_plain {c : Char} (h1 : c ≠ '"') (h2 : c ≠ '\\') (s : Str) :
    stringBody (c :: s) = (stringBody s).map (c :: ·) := by
  rw [stringBody.eq_def]; simp [h1, h2]

theorem stringBody_escNl (s : Str) : stringBody ('\\' :: '\n' :: s) = (stringBody ('\n' :: s)).map ('\\' :: ·) := by
  rw [stringBody.eq_def]; simp

theorem stringBody_esc {d : Char} (h : d ≠ '\n') (s : Str) :
    stringBody ('\\' :: d :: s) = match stringBody s with
      | some m => some ('\\' :: d :: m)
      | none => (stringBody (d :: s)).map ('\\' :: ·) := by
  rw [stringBody.eq_def]; simp [h]; rfl

theorem stringBody_crlf (s : Str) : stringBody (crlf s) = (stringBody s).map crlf := by
  generalize hn : s.length = n
  induction n using Nat.strongRecOn generalizing s with
  | _ n ih =>
    have sub : ∀ t : Str, t.length < n → stringBody (crlf t) = (stringBody t).map crlf :=
      fun t ht => ih _ ht t rfl
    clear ih
    cases s with
    | nil => rfl
    | cons c s =>
      simp only [List.length_cons] at hn
      by_cases hq : c = '"'
      · subst hq; rw [crlf_cons (by decide), stringBody_quote, stringBody_quote]; rfl
      · by_cases hb : c = '\\'
        · subst hb
          rw [crlf_cons (by decide)]
          cases s with
          | nil => rfl
          | cons d s =>
            simp only [List.length_cons] at hn
            have hs := sub s (by omega)
            by_cases hd : d = '\n'
            · subst hd
              rw [crlf_nl, stringBody_escNl, stringBody_esc (by decide), stringBody_plain (c := '\r') (by decide)
                (by decide), stringBody_plain (c := '\n') (by decide) (by decide),
                stringBody_plain (c := '\n') (by decide) (by decide), hs]
              cases stringBody s <;> simp [crlf_cons, crlf_nl]
            · have hds := sub (d :: s) (by simp only [List.length_cons]; omega)
              rw [crlf_cons hd] at hds ⊢
              rw [stringBody_esc hd, stringBody_esc hd, hs, hds]
              cases stringBody s <;> cases stringBody (d :: s) <;> simp [crlf_cons, hd]
        · have hs := sub s (by omega)
          by_cases hc : c = '\n'
          · subst hc
            rw [crlf_nl, stringBody_plain (c := '\r') (by decide) (by decide), stringBody_plain hq hb,
              stringBody_plain hq hb, hs]
            cases stringBody s <;> simp [crlf_nl]
          · rw [crlf_cons hc, stringBody_plain hq hb, stringBody_plain hq hb, hs]
            cases stringBody s <;> simp [crlf_cons, hc]

theorem matchString_crlf (s : Str) : matchString (crlf s) = (matchString s).map crlf := by
  cases s with
  | nil => rfl
  | cons c s =>
    by_cases h : c = '"'
    · subst h
      rw [crlf_cons (by decide)]
      simp only [matchString, stringBody_crlf]
      cases stringBody s <;> simp [crlf_cons]
    · have : ∀ (c : Char) (s : Str), c ≠ '"' → matchString (c :: s) = none := by
        intro c s hc
        unfold matchString; split
        · rename_i e; simp only [List.cons.injEq] at e; exact absurd e.1 hc
        · rfl
      rw [this c s h]
      by_cases hn : c = '\n'
      · subst hn; rw [crlf_nl]; exact this _ _ (by decide)
      · rw [crlf_cons hn]; exact this _ _ h

/-! ### One step -/

theorem drop_crlf_of {r m q : Str} (h : r = m ++ q) :
    (crlf r).drop (crlf m).length = crlf (r.drop m.length) := by
  subst h; simp [crlf_append]

theorem regex_crlf {ch : Char} {r m : Str} (hc : ch ≠ '\n') (hm : m <+: ch :: r ∧ m ≠ []) (ha : Ascii m) :
    (crlf r).drop (bytes (crlf m) - 1) = crlf (r.drop (bytes m - 1)) := by
  rw [ha.bytes, (crlf_ascii ha).bytes]
  obtain ⟨⟨q, hq⟩, hne⟩ := hm
  cases m with
  | nil => exact absurd rfl hne
  | cons d m =>
    simp only [List.cons_append, List.cons.injEq] at hq
    obtain ⟨rfl, hq⟩ := hq
    rw [crlf_cons hc]
    exact drop_crlf_of hq.symm

theorem regex_same {ch : Char} {r m : Str} (hc : ch ≠ '\n') (hm : m <+: ch :: r ∧ m ≠ []) (ha : Ascii m)
    (hn : '\n' ∉ m) : (crlf r).drop (bytes m - 1) = crlf (r.drop (bytes m - 1)) := by
  have := regex_crlf hc hm ha
  rwa [crlf_eq_self hn] at this

theorem ren_crlf_eq {t : Token} (h : ∀ m, t ≠ .stringLiteral m) (hn : '\n' ∉ t.text) : t.ren crlf = t := by
  cases t <;> first
    | rfl
    | exact absurd rfl (h _)
    | (simp only [Token.ren]; rw [crlf_eq_self]; exact hn)

theorem scanWord_not_comment (U : CharClass) (s : Str) (k : Nat) : scanWord U s ≠ .comment k := by
  unfold scanWord
  split
  · simp
  · split
    · simp
    · exact scanOther_not.2.1 k

/-- the step on the changed text -/
def Scan.crlf (n : Nat) : Scan → Scan
  | .comment _ => .comment n
  | .token (.stringLiteral m) _ _ => regexToken (.stringLiteral (Verif.crlf m)) (Verif.crlf m)
  | x => x

theorem scanOther_crlf (n : Nat) (s : Str) : scanOther (crlf s) = (scanOther s).crlf n := by
  unfold scanOther
  rw [matchByStrSize_crlf, startsByStr_crlf, matchHex_crlf, matchInteger_crlf, matchString_crlf,
    matchRegularId_crlf, matchTemplateId_crlf, matchCustomId_crlf, matchSpecialId_crlf]
  cases matchByStrSize s with
  | some m => rfl
  | none =>
  cases startsByStr s with
  | true => rfl
  | false =>
  cases matchHex s with
  | some m => rfl
  | none =>
  cases matchInteger s with
  | some m => rfl
  | none =>
  cases matchString s with
  | some m => rfl
  | none =>
  cases matchRegularId s with
  | some m => rfl
  | none =>
  cases matchTemplateId s with
  | some m => rfl
  | none =>
  cases matchCustomId s with
  | some m => rfl
  | none =>
  cases matchSpecialId s with
  | some m => rfl
  | none => rfl

theorem keyword_not_string {s : Str} {t : Token} (h : lookupKeyword s = some t) (m : Str) :
    t ≠ .stringLiteral m := by
  rintro rfl
  have := keywordTable_text _ (lookupKeyword_mem h)
  have h2 : ∀ p ∈ keywordTable, p.2.text.head? ≠ some '"' ∧ p.2.text ≠ [] := by decide
  have h3 := keywordTable_wf _ (lookupKeyword_mem h)
  obtain ⟨b, rfl, _⟩ := h3
  exact (h2 _ (lookupKeyword_mem h)).1 rfl

theorem Scan.crlf_token {n : Nat} {t : Token} {l k : Nat} (h : ∀ m, t ≠ .stringLiteral m) :
    (Scan.token t l k).crlf n = .token t l k := by
  cases t <;> first | rfl | exact absurd rfl (h _)

theorem scanWord_crlf (U : CharClass) (n : Nat) (s : Str) :
    scanWord U (crlf s) = (scanWord U s).crlf n := by
  unfold scanWord
  rcases keywordSlice_crlf U s with h | ⟨h1, h2, h3, h4⟩
  · rw [h]
    cases keywordSlice U s with
    | none => rfl
    | some kw =>
      simp only
      cases hk : lookupKeyword kw with
      | some t => simp only; rw [Scan.crlf_token (keyword_not_string hk)]
      | none => exact scanOther_crlf n s
  · rw [h1, h2]
    simp only [h3, h4]
    exact scanOther_crlf n s

theorem scan_crlf (U : CharClass) {ch : Char} (hc : ch ≠ '\n') (r : Str) :
    scan U ch (crlf r) = (scan U ch r).crlf (1 + commentLen (crlf r.tail)) := by
  have hn1 : U.isNumeric '\r' = false := by rw [isNumeric_of_ascii U (by decide)]; decide
  have hn2 : U.isNumeric '\n' = false := by rw [isNumeric_of_ascii U (by decide)]; decide
  have h0 : scanWord U (ch :: crlf r) = (scanWord U (ch :: r)).crlf (1 + commentLen (crlf r.tail)) := by
    rw [← crlf_cons hc]; exact scanWord_crlf U _ _
  have htail : r.head? = some '*' → (crlf r).tail = crlf r.tail := by
    intro h
    cases r with
    | nil => rfl
    | cons c r => simp only [List.head?_cons, Option.some.injEq] at h; subst h; rfl
  unfold scan
  rw [head_crlf '>' (by decide) (by decide), head_crlf '-' (by decide) (by decide),
    head_crlf '=' (by decide) (by decide), head_crlf '*' (by decide) (by decide),
    headP_crlf hn1 hn2, headP_crlf (isIdent_cr U) (isIdent_nl U)]
  split
  · rfl
  split
  · rfl
  split
  · rfl
  split
  · rfl
  split
  · rfl
  split
  · rfl
  split
  · rfl
  split
  · rename_i h
    simp only [Bool.and_eq_true, beq_iff_eq] at h
    rw [htail h.2]; rfl
  · cases hs : singleTok ch with
    | none => exact h0
    | some t =>
      have : ∀ m, t ≠ .stringLiteral m := by
        rintro m rfl
        unfold singleTok at hs
        split at hs <;> simp at hs
      simp only; rw [Scan.crlf_token this]

theorem commentLen_crlf (s : Str) : (crlf s).drop (commentLen (crlf s)) = crlf (s.drop (commentLen s)) := by
  induction s with
  | nil => rfl
  | cons c s ih =>
    by_cases hc : c = '\n'
    · subst hc
      rw [crlf_nl]
      have h1 : ('\r' == '*') = false := by decide
      have h2 : ('\n' == '*') = false := by decide
      simp only [commentLen, h1, h2, Bool.false_and]
      simp [Nat.add_comm 1, ih]
    · rw [crlf_cons hc]
      simp only [commentLen]
      rw [head_crlf ')' (by decide) (by decide)]
      split
      · rename_i h
        simp only [Bool.and_eq_true, beq_iff_eq] at h
        cases s with
        | nil => simp at h
        | cons d s =>
          simp only [List.head?_cons, Option.some.injEq] at h
          obtain ⟨_, rfl⟩ := h
          rw [crlf_cons (by decide)]; rfl
      · simp [Nat.add_comm 1, ih]

/-- the text left after a comment -/
theorem comment_rest_crlf (U : CharClass) {ch : Char} {r : Str} {k : Nat} (h : scan U ch r = .comment k) :
    (crlf r).drop (1 + commentLen (crlf r.tail)) = crlf (r.drop k) := by
  obtain ⟨rfl, hh, rfl⟩ : ch = '(' ∧ r.head? = some '*' ∧ k = 1 + commentLen r.tail := by
    unfold scan at h
    split at h
    · simp at h
    split at h
    · simp at h
    split at h
    · simp at h
    split at h
    · simp at h
    split at h
    · simp at h
    split at h
    · simp at h
    split at h
    · simp at h
    split at h
    · rename_i hc
      simp only [Bool.and_eq_true, beq_iff_eq] at hc
      injection h with h
      exact ⟨hc.1, hc.2, h.symm⟩
    · exfalso
      split at h
      · simp at h
      · exact (scanWord_not_comment U _ k) h
  cases r with
  | nil => simp at hh
  | cons c r =>
    simp only [List.head?_cons, Option.some.injEq] at hh
    subst hh
    rw [crlf_cons (by decide)]
    simp [Nat.add_comm 1, commentLen_crlf]

/-- the text left after a token -/
theorem token_rest_crlf {U : CharClass} {ch : Char} {r : Str} {t : Token} {l k : Nat} (hc : ch ≠ '\n')
    (h : scan U ch r = .token t l k) (ha : ∀ m, t = .stringLiteral m → Ascii m) :
    ∃ l' k', (scan U ch r).crlf (1 + commentLen (crlf r.tail)) = .token (t.ren crlf) l' k' ∧
      (crlf r).drop k' = crlf (r.drop k) := by
  obtain ⟨m, hm⟩ := scan_lexeme h
  have hwf := scan_wf h
  rw [h]
  by_cases hu : t = .unknown
  · subst hu
    obtain ⟨rfl, rfl⟩ := hm.unknown rfl
    exact ⟨_, _, rfl, rfl⟩
  · obtain ⟨rfl, hne, hk⟩ := hm.text hu
    have hk' : k = bytes t.text - 1 := by omega
    by_cases hs : ∃ m, t = .stringLiteral m
    · obtain ⟨m, rfl⟩ := hs
      refine ⟨_, _, rfl, ?_⟩
      rw [hk']
      exact regex_crlf hc ⟨hm.pre, hne⟩ (ha m rfl)
    · have hns : ∀ m, t ≠ .stringLiteral m := fun m e => hs ⟨m, e⟩
      have hp := wf_text_plain hwf hns
      have hnl : '\n' ∉ t.text := fun hm => (hp _ hm).1 rfl
      rw [Scan.crlf_token hns, ren_crlf_eq hns hnl]
      refine ⟨_, _, rfl, ?_⟩
      rw [hk']
      exact regex_same hc ⟨hm.pre, hne⟩ (fun c hc => (hp c hc).2) hnl

/-! ### The whole text -/

/-- corresponding tokens: the same kind, the same text up to line ends, on the same line -/
def onLine (t : STok) : Token × Nat × Nat := (t.tok, t.start.line, t.stop.line)

theorem tokens_crlf (U : CharClass) (σ τ : LexState) (hr : τ.rest = crlf σ.rest) (hl : τ.line = σ.line)
    (ha : AsciiStrings (tokensFrom U σ)) :
    (tokensFrom U τ).map onLine =
        (tokensFrom U σ).map (fun t => (t.tok.ren crlf, t.start.line, t.stop.line)) ∧
      (drain U τ = none ↔ drain U σ = none) := by
  generalize hn : σ.rest.length = n
  induction n using Nat.strongRecOn generalizing σ τ with
  | _ n ih =>
    cases hσ : σ.rest with
    | nil =>
      rw [hσ, crlf_nil] at hr
      rw [tokensFrom_step, tokensFrom_step U σ, drain_eq, drain_eq U σ]
      simp [lexStep, hσ, hr]
    | cons ch r =>
      rw [hσ] at hr hn
      simp only [List.length_cons] at hn
      have hstep := tokensFrom_step U σ
      have hdr := drain_eq U σ
      by_cases hc : ch = '\n'
      · subst hc
        have hw : ∀ q, scan U '\n' q = .white := by
          intro q
          unfold scan
          rw [if_pos]
          rw [isWhite_of_ascii U (by decide)]; unfold AsciiWhite; decide
        have hw' : ∀ q, scan U '\r' q = .white := by
          intro q
          unfold scan
          rw [if_pos]
          rw [isWhite_of_ascii U (by decide)]; unfold AsciiWhite; decide
        rw [crlf_nl] at hr
        have e1 : lexStep U σ = .skip { (σ.advance '\n' r 0) with character := 0, line := σ.line + 1 } := by
          unfold lexStep
          rw [hσ]
          simp only [hw]
          rfl
        have e2 : lexStep U τ = .skip (τ.advance '\r' ('\n' :: crlf r) 0) := by
          unfold lexStep
          rw [hr]
          simp only [hw']
          rfl
        have e3 : lexStep U (τ.advance '\r' ('\n' :: crlf r) 0) =
            .skip { ((τ.advance '\r' ('\n' :: crlf r) 0).advance '\n' (crlf r) 0) with
              character := 0, line := τ.line + 1 } := by
          unfold lexStep
          simp only [LexState.advance, List.drop_zero, hw]
          rfl
        rw [e1] at hstep hdr
        simp only at hstep hdr
        rw [tokensFrom_step U τ, drain_eq U τ, e2]
        simp only
        rw [tokensFrom_step U (τ.advance _ _ _), drain_eq U (τ.advance _ _ _), e3]
        simp only
        rw [hstep, hdr]
        refine ih r.length (by omega) _ _ ?_ ?_ ?_ ?_
        · simp [LexState.advance]
        · simp [hl]
        · rw [← hstep]; exact ha
        · simp [LexState.advance]
      · rw [crlf_cons hc] at hr
        have hs := scan_crlf U hc r
        cases hsc : scan U ch r with
        | white =>
          rw [hsc] at hs
          simp only [Scan.crlf] at hs
          have hnl : (ch == '\n') = false := by simpa using hc
          have e1 : lexStep U σ = .skip (σ.advance ch r 0) := by
            unfold lexStep; rw [hσ]; simp only [hsc, hnl]; rfl
          have e2 : lexStep U τ = .skip (τ.advance ch (crlf r) 0) := by
            unfold lexStep; rw [hr]; simp only [hs, hnl]; rfl
          rw [e1] at hstep hdr
          simp only at hstep hdr
          rw [tokensFrom_step U τ, drain_eq U τ, e2]
          simp only
          rw [hstep, hdr]
          refine ih r.length (by omega) _ _ ?_ ?_ ?_ ?_
          · simp [LexState.advance]
          · simp [LexState.advance, hl]
          · rw [← hstep]; exact ha
          · simp [LexState.advance]
        | comment k =>
          have hrest := comment_rest_crlf U hsc
          rw [hsc] at hs
          simp only [Scan.crlf] at hs
          have e1 : lexStep U σ = .skip (σ.advance ch r k) := by
            unfold lexStep; rw [hσ]; simp only [hsc]
          have e2 : lexStep U τ = .skip (τ.advance ch (crlf r) (1 + commentLen (crlf r.tail))) := by
            unfold lexStep; rw [hr]; simp only [hs]
          rw [e1] at hstep hdr
          simp only at hstep hdr
          rw [tokensFrom_step U τ, drain_eq U τ, e2]
          simp only
          rw [hstep, hdr]
          refine ih (r.drop k).length (by simp; omega) _ _ ?_ ?_ ?_ ?_
          · simpa [LexState.advance] using hrest
          · simp [LexState.advance, hl]
          · rw [← hstep]; exact ha
          · simp [LexState.advance]
        | panic =>
          rw [hsc] at hs
          simp only [Scan.crlf] at hs
          have e1 : lexStep U σ = .panic := by
            unfold lexStep; rw [hσ]; simp only [hsc]
          have e2 : lexStep U τ = .panic := by
            unfold lexStep; rw [hr]; simp only [hs]
          rw [hstep, hdr, tokensFrom_step U τ, drain_eq U τ, e1, e2]
          simp
        | token t l k =>
          have e1 : lexStep U σ = .yield
              { start := ⟨σ.offset, σ.line, σ.character⟩, tok := t,
                stop := (⟨σ.offset, σ.line, σ.character⟩ : Pos).withEnd (σ.offset + l) } (σ.advance ch r k) := by
            unfold lexStep; rw [hσ]; simp only [hsc]
          rw [e1] at hstep hdr
          simp only at hstep hdr
          have hat : ∀ m, t = .stringLiteral m → Ascii m := fun m hm =>
            ha _ (by rw [hstep]; exact List.mem_cons_self) m hm
          obtain ⟨l', k', h1, h2⟩ := token_rest_crlf hc hsc hat
          rw [h1] at hs
          have e2 : lexStep U τ = .yield
              { start := ⟨τ.offset, τ.line, τ.character⟩, tok := t.ren crlf,
                stop := (⟨τ.offset, τ.line, τ.character⟩ : Pos).withEnd (τ.offset + l') }
                (τ.advance ch (crlf r) k') := by
            unfold lexStep; rw [hr]; simp only [hs]
          have := ih (r.drop k).length (by simp; omega) (σ.advance ch r k) (τ.advance ch (crlf r) k')
            (by simpa [LexState.advance] using h2) (by simp [LexState.advance, hl])
            (fun u hu => ha u (by rw [hstep]; exact List.mem_cons_of_mem _ hu)) (by simp [LexState.advance])
          rw [hstep, hdr, tokensFrom_step U τ, drain_eq U τ, e2]
          simp only [List.map_cons, this.1, Option.map_eq_none_iff, this.2, and_true, List.cons.injEq]
          simp [onLine, hl, Pos.withEnd]

end Verif
