import Verif.Proofs.LexToks
/-
Lexing printed tokens.
-/
namespace Verif

theorem takeWhile_append_stop {p : Char → Bool} {w q : Str} (hw : ∀ c ∈ w, p c = true)
    (hq : ∀ c, q.head? = some c → p c = false) : (w ++ q).takeWhile p = w := by
  induction w with
  | nil =>
    cases q with
    | nil => rfl
    | cons c q => simp [List.takeWhile_cons, hq c rfl]
  | cons c w ih =>
    rw [List.cons_append, List.takeWhile_cons, if_pos (hw c (by simp)),
      ih (fun d hd => hw d (by simp [hd]))]

theorem isWord_false {c : Char} (h : ¬ NameChar c) : isWord c = false := by
  cases hc : isWord c with
  | false => rfl
  | true => exact absurd (isWord_iff.mp hc) h

/-- Name characters other than `_` always reach the word scanner. -/
theorem scan_word (U : CharClass) {c : Char} (h : isWord c = true) (hu : c ≠ '_') (r : Str) :
    scan U c r = scanWord U (c :: r) := by
  have hne : ∀ d, isWord d = false → c ≠ d := by
    rintro d hd rfl; rw [h] at hd; simp at hd
  have hw : U.isWhite c = false := by
    cases hw : U.isWhite c with
    | false => rfl
    | true =>
      rcases (isWhite_of_ascii U (isWord_ascii h)).mp hw with rfl | hw
      · revert h; decide
      · exfalso
        simp [isWord, isLower, isUpper, isDigit] at h
        rcases h with ((h | h) | h) | h
        · omega
        · omega
        · omega
        · exact hu h
  have hs : singleTok c = none := by
    rw [singleTok_none_iff]
    intro hm
    simp at hm
    rcases hm with rfl | rfl | rfl | rfl | rfl | rfl | rfl | rfl | rfl | rfl | rfl | rfl | rfl |
      rfl | rfl | rfl <;> (revert h; decide)
  unfold scan
  simp [hw, hs, hu, hne '=' (by decide), hne '-' (by decide), hne '<' (by decide),
    hne ':' (by decide), hne '(' (by decide)]

theorem run_eq (U : CharClass) {w q : Str} (hw : ∀ c ∈ w, isWord c = true)
    (hq : ∀ c, q.head? = some c → c.toNat < 128 ∧ ¬ NameChar c) :
    (w ++ q).takeWhile U.isIdent = w := by
  apply takeWhile_append_stop
  · exact fun c hc => isIdent_word U (hw c hc)
  · intro c hc
    obtain ⟨h1, h2⟩ := hq c hc
    rw [isIdent_of_ascii U h1]; exact isWord_false h2

theorem ascii_word {w : Str} (hw : ∀ c ∈ w, isWord c = true) : Ascii w := fun c hc =>
  isWord_ascii (hw c hc)

theorem keywords_lookup {s : Str} (h : s ∉ keywords) : lookupKeyword s = none := by
  cases hl : lookupKeyword s with
  | none => rfl
  | some t =>
    exact absurd (mem_keywords.mpr (List.mem_map.mpr ⟨_, lookupKeyword_mem hl, rfl⟩)) h

theorem lookupKeyword_table : ∀ p ∈ keywordTable, lookupKeyword p.1 = some p.2 := by decide

theorem keywordTable_head : ∀ p ∈ keywordTable, p.1.head? ≠ some '_' := by decide

/-- A keyword not followed by a name character is that keyword, at any point of any document. -/
theorem scan_keyword (U : CharClass) {kw : Str} {t : Token} (hm : (kw, t) ∈ keywordTable) (q : Str)
    (hq : ∀ c, q.head? = some c → U.isIdent c = false) :
    ∃ c w, kw = c :: w ∧ scan U c (w ++ q) = .token t (bytes kw) w.length := by
  have hw := keywordTable_word _ hm
  have hh := keywordTable_head _ hm
  have hne := (keywordTable_text _ hm).2.2.1
  cases kw with
  | nil => exact absurd rfl hne
  | cons c w =>
    refine ⟨c, w, rfl, ?_⟩
    have hrun : ((c :: w) ++ q).takeWhile U.isIdent = c :: w :=
      takeWhile_append_stop (fun d hd => isIdent_word U (hw d hd)) hq
    rw [scan_word U (hw c (by simp)) (by simpa using hh)]
    have := scanWord_run U ((c :: w) ++ q) (by rw [hrun]; exact ascii_word hw)
    rw [hrun, lookupKeyword_table _ hm] at this
    rw [List.cons_append] at this
    rw [this, (ascii_word hw).bytes]
    simp

theorem scan_not_keyword (U : CharClass) {c : Char} {w q : Str} (hw : ∀ d ∈ c :: w, isWord d = true)
    (hc : c ≠ '_') (hk : lookupKeyword (c :: w) = none)
    (hq : ∀ c, q.head? = some c → c.toNat < 128 ∧ ¬ NameChar c) :
    scan U c (w ++ q) = scanOther (c :: w ++ q) := by
  have hrun := run_eq U hw hq
  rw [scan_word U (hw c (by simp)) hc]
  have := scanWord_run U ((c :: w) ++ q) (by rw [hrun]; exact ascii_word hw)
  rw [hrun, hk] at this
  exact this

theorem lower_not {c : Char} (h : isLower c = true) :
    isWord c = true ∧ isDigit c = false ∧ isUpper c = false ∧ c ≠ '_' ∧ c ≠ '"' ∧ c ≠ '\'' ∧
    c ≠ 'B' ∧ c ≠ '0' ∧ c ≠ '+' ∧ c ≠ '-' := by
  refine ⟨by simp [isWord, h], ?_⟩
  simp [isLower] at h
  refine ⟨by simp [isDigit]; omega, by simp [isUpper]; omega, ?_⟩
  refine ⟨?_, ?_, ?_, ?_, ?_, ?_, ?_⟩ <;> (rintro rfl; revert h; decide)

theorem upper_not {c : Char} (h : isUpper c = true) :
    isWord c = true ∧ isDigit c = false ∧ isLower c = false ∧ c ≠ '_' ∧ c ≠ '"' ∧ c ≠ '\'' ∧
    c ≠ '0' ∧ c ≠ '+' ∧ c ≠ '-' := by
  refine ⟨by simp [isWord, h], ?_⟩
  simp [isUpper] at h
  refine ⟨by simp [isDigit]; omega, by simp [isLower]; omega, ?_⟩
  refine ⟨?_, ?_, ?_, ?_, ?_, ?_⟩ <;> (rintro rfl; revert h; decide)

theorem digit_not {c : Char} (h : isDigit c = true) :
    isWord c = true ∧ isLower c = false ∧ isUpper c = false ∧ c ≠ '_' ∧ c ≠ '"' ∧ c ≠ '\'' ∧
    c ≠ 'B' ∧ c ≠ '+' ∧ c ≠ '-' := by
  refine ⟨by simp [isWord, h], ?_⟩
  simp [isDigit] at h
  refine ⟨by simp [isLower]; omega, by simp [isUpper]; omega, ?_⟩
  refine ⟨?_, ?_, ?_, ?_, ?_, ?_⟩ <;> (rintro rfl; revert h; decide)

/-! Non-matching of the earlier regular expressions -/

theorem matchByStrSize_none_of_head {s : Str} (h : s.head? ≠ some 'B') :
    matchByStrSize s = none ∧ startsByStr s = false := by
  constructor
  · unfold matchByStrSize; split
    · simp at h
    · rfl
  · unfold startsByStr; split
    · simp at h
    · rfl

theorem matchHex_none_of_head {s : Str} (h : s.head? ≠ some '0') : matchHex s = none := by
  unfold matchHex; split
  · simp at h
  · rfl

theorem matchInteger_none {c : Char} {s : Str} (h : isDigit c = false) (h1 : c ≠ '+') (h2 : c ≠ '-') :
    matchInteger (c :: s) = none := by
  simp [matchInteger, h1, h2, List.takeWhile_cons, h]

theorem matchString_none_of_head {s : Str} (h : s.head? ≠ some '"') : matchString s = none := by
  unfold matchString; split
  · simp at h
  · rfl

theorem matchTemplateId_none_of_head {s : Str} (h : s.head? ≠ some '\'') : matchTemplateId s = none := by
  unfold matchTemplateId; split
  · simp at h
  · rfl

theorem matchRegularId_none {c : Char} {s : Str} (h : isLower c = false) : matchRegularId (c :: s) = none := by
  simp [matchRegularId, h]

theorem matchCustomId_none {c : Char} {s : Str} (h : isUpper c = false) : matchCustomId (c :: s) = none := by
  simp [matchCustomId, h]

/-- the byte string prefix does not straddle the end of a name -/
theorem byStr_none {w q : Str} (hp : ¬ str! "ByStr" <+: w)
    (hq : ∀ c, q.head? = some c → ¬ NameChar c) :
    matchByStrSize (w ++ q) = none ∧ startsByStr (w ++ q) = false := by
  have hst : startsByStr (w ++ q) = false := by
    cases hs : startsByStr (w ++ q) with
    | false => rfl
    | true =>
      exfalso
      unfold startsByStr at hs
      split at hs
      · rename_i s he
        have hn : ∀ c ∈ str! "ByStr", isWord c = true := by decide
        have hpre : str! "ByStr" <+: w ++ q := ⟨s, by simp [he]⟩
        rcases List.prefix_or_prefix_of_prefix hpre (List.prefix_append w q) with h | ⟨r, h1⟩
        · exact hp h
        · cases r with
          | nil => exact hp ⟨[], by rw [← h1]; simp⟩
          | cons d r =>
            have h3 : q.head? = some d := by
              rw [← h1] at hpre
              have := (List.prefix_append_right_inj w).mp hpre
              cases q with
              | nil => simp at this
              | cons e q => simp [List.cons_prefix_cons] at this; simp [this.1]
            have : d ∈ str! "ByStr" := by rw [← h1]; simp
            exact hq d h3 (isWord_iff.mp (hn d this))
      · simp at hs
  refine ⟨?_, hst⟩
  cases hm : matchByStrSize (w ++ q) with
  | none => rfl
  | some m =>
    exfalso
    unfold matchByStrSize at hm
    split at hm
    · rename_i s he
      rw [he] at hst
      simp [startsByStr] at hst
    · simp at hm

theorem stringBody_strict {b : Str} (h : StrictBody b) (q : Str) :
    stringBody (b ++ '"' :: q) = some (b ++ ['"']) := by
  induction h with
  | nil => unfold stringBody; simp
  | char c s h1 h2 _ ih =>
    rw [List.cons_append]; unfold stringBody
    simp only [beq_iff_eq, h1, h2, if_false]
    rw [ih]; rfl
  | escape c s h1 _ ih =>
    rw [List.cons_append, List.cons_append]; unfold stringBody
    simp [h1, ih]

theorem hexPairs_exact {ds q : Str} (h : ∀ c ∈ ds, isHex c = true) (h2 : ds.length % 2 = 0)
    (hq : ∀ c, q.head? = some c → isHex c = false) : hexPairs (ds ++ q) = ds := by
  fun_induction hexPairs ds with
  | case1 a b s hab ih =>
    have : s.length % 2 = 0 := by simp at h2; omega
    simp only [List.cons_append, hexPairs, hab, if_true]
    rw [ih (fun c hc => h c (by simp [hc])) this]
  | case2 a b s hab =>
    simp [h a, h b] at hab
  | case3 s hs =>
    cases s with
    | nil =>
      cases q with
      | nil => rfl
      | cons c q =>
        have := hq c rfl
        cases q with
        | nil => rfl
        | cons d q => simp [hexPairs, this]
    | cons a s =>
      cases s with
      | nil => simp at h2
      | cons b s => exact absurd rfl (hs a b s)

theorem wf_cons_word {c : Char} {w : Str} (h1 : 'a' ≤ c ∧ c ≤ 'z' ∨ 'A' ≤ c ∧ c ≤ 'Z')
    (h2 : ∀ d ∈ w, NameChar d) : ∀ d ∈ c :: w, isWord d = true := by
  intro d hd
  rw [isWord_iff]
  rcases List.mem_cons.mp hd with rfl | hd
  · rcases h1 with h | h
    · exact .inl h
    · exact .inr (.inl h)
  · exact h2 d hd

theorem digit_isHex {c : Char} (h : isDigit c = true) : isHex c = true := by simp [isHex, h]

theorem isWhite_false (U : CharClass) {c : Char} (h : c.toNat < 128)
    (h2 : (c == ' ' || (decide (9 ≤ c.toNat) && decide (c.toNat ≤ 13))) = false) :
    U.isWhite c = false := by
  simp [CharClass.isWhite, isAscii, h, h2]

/-- Lexing the text of a printable token, followed by anything it is separated from. -/
theorem scan_printable (U : CharClass) {t : Token} {q : Str} (hp : Printable t)
    (hs : Separated t q) :
    ∃ c w len, t.text = c :: w ∧ scan U c (w ++ q) = .token t len w.length := by
  have hq : t.wordy = true → ∀ c, q.head? = some c → c.toNat < 128 ∧ ¬ NameChar c :=
    fun hw c hc => ⟨(hs c hc).1, (hs c hc).2.1 hw⟩
  have hqd : t.wordy = true → ∀ c, q.head? = some c → isDigit c = false := by
    intro hw c hc
    cases hd : isDigit c with
    | false => rfl
    | true => exact absurd (digit_name (isDigit_iff.mp hd)) (hq hw c hc).2
  have hqw : t.wordy = true → ∀ c, q.head? = some c → isWord c = false :=
    fun hw c hc => isWord_false (hq hw c hc).2
  have hkw : t.wordy = true → ∀ kw, (kw, t) ∈ keywordTable → t.text = kw →
      ∃ c w len, t.text = c :: w ∧ scan U c (w ++ q) = .token t len w.length := by
    intro hw kw hm ht
    obtain ⟨c, w, h1, h2⟩ := scan_keyword U hm q (by
      intro c hc
      rw [isIdent_of_ascii U (hq hw c hc).1]; exact hqw hw c hc)
    exact ⟨c, w, _, by rw [ht, h1], h2⟩
  cases t with
  | unknown => exact hp.elim
  | comment s => exact hp.elim
  | typeName s => exact hp.elim
  | whitespace => exact hp.elim
  | identifier s =>
    obtain ⟨⟨c, w, rfl, h1, h2, h3⟩, hk⟩ := hp
    have hl := isLower_iff.mpr ⟨h1, h2⟩
    obtain ⟨hw, hd, hup, n1, n2, n3, n4, n5, n6, n7⟩ := lower_not hl
    have hq := hq rfl
    refine ⟨c, w, bytes (c :: w), rfl, ?_⟩
    rw [scan_not_keyword U (wf_cons_word (.inl ⟨h1, h2⟩) h3) n1 (keywords_lookup hk) hq]
    obtain ⟨m1, m2⟩ := matchByStrSize_none_of_head (s := c :: (w ++ q)) (by simp [n4])
    have m3 : w.takeWhile isWord = w := takeWhile_eq_self_of_all (by
      simp; exact fun d hd => isWord_iff.mpr (h3 d hd))
    have m4 : (w ++ q).takeWhile isWord = w := takeWhile_append_stop
      (fun d hd => isWord_iff.mpr (h3 d hd)) (hqw rfl)
    have hb : bytes (c :: w) = w.length + 1 :=
      (ascii_word (wf_cons_word (.inl ⟨h1, h2⟩) h3)).bytes
    unfold scanOther
    rw [List.cons_append, m1, m2, matchHex_none_of_head (by simp [n5]),
      matchInteger_none hd n6 n7, matchString_none_of_head (by simp [n2])]
    simp [matchRegularId, hl, m4, regexToken]
    simp at hb; omega
  | customIdentifier s =>
    obtain ⟨⟨c, w, rfl, h1, h2, h3⟩, hk, hb⟩ := hp
    have hl := isUpper_iff.mpr ⟨h1, h2⟩
    obtain ⟨hw, hd, hup, n1, n2, n3, n5, n6, n7⟩ := upper_not hl
    have hq := hq rfl
    refine ⟨c, w, bytes (c :: w), rfl, ?_⟩
    rw [scan_not_keyword U (wf_cons_word (.inr ⟨h1, h2⟩) h3) n1 (keywords_lookup hk) hq]
    obtain ⟨m1, m2⟩ := byStr_none hb (fun c hc => (hq c hc).2)
    rw [List.cons_append] at m1 m2
    have m4 : (w ++ q).takeWhile isWord = w := takeWhile_append_stop
      (fun d hd => isWord_iff.mpr (h3 d hd)) (hqw rfl)
    have hb : bytes (c :: w) = w.length + 1 :=
      (ascii_word (wf_cons_word (.inr ⟨h1, h2⟩) h3)).bytes
    unfold scanOther
    rw [List.cons_append, m1, m2, matchHex_none_of_head (by simp [n5]),
      matchInteger_none hd n6 n7, matchString_none_of_head (by simp [n2]),
      matchRegularId_none hup, matchTemplateId_none_of_head (by simp [n3])]
    simp [matchCustomId, hl, m4, regexToken]
    simp at hb; omega
  | templateIdentifier s =>
    obtain ⟨c, w, rfl, h1, h2, h3⟩ := hp
    have hl := isUpper_iff.mpr ⟨h1, h2⟩
    refine ⟨'\'', c :: w, bytes ('\'' :: c :: w), rfl, ?_⟩
    have m4 : (w ++ q).takeWhile isWord = w := takeWhile_append_stop
      (fun d hd => isWord_iff.mpr (h3 d hd)) (hqw rfl)
    have hw : U.isWhite '\'' = false := isWhite_false U (by decide) (by decide)
    have hi : U.isIdent '\'' = false := by rw [isIdent_of_ascii U (by decide)]; decide
    have hsw : scan U '\'' (c :: w ++ q) = scanWord U ('\'' :: (c :: w ++ q)) := by
      simp [scan, hw, singleTok]
    have hrun : ('\'' :: (c :: w ++ q)).takeWhile U.isIdent = [] := by
      simp [List.takeWhile_cons, hi]
    have := scanWord_run U ('\'' :: (c :: w ++ q)) (by rw [hrun]; exact Ascii.nil)
    rw [hrun, lookupKeyword_none_of (.inl rfl)] at this
    rw [hsw, this]
    obtain ⟨m1, m2⟩ := matchByStrSize_none_of_head (s := '\'' :: (c :: w ++ q)) (by simp)
    have hb : bytes (c :: w) = w.length + 1 :=
      (ascii_word (wf_cons_word (.inr ⟨h1, h2⟩) h3)).bytes
    unfold scanOther
    rw [m1, m2, matchHex_none_of_head (by simp),
      matchInteger_none (by decide) (by decide) (by decide), matchString_none_of_head (by simp),
      matchRegularId_none (by decide)]
    simp [matchTemplateId, hl, m4, regexToken]
    have : ('\'' : Char).utf8Size = 1 := by decide
    simp at hb; omega
  | specialIdentifier s =>
    obtain ⟨⟨w, rfl, h3⟩, hne⟩ := hp
    cases w with
    | nil => exact absurd rfl hne
    | cons d w =>
    have hw : U.isWhite '_' = false := isWhite_false U (by decide) (by decide)
    have hd : U.isIdent d = true := isIdent_word U (isWord_iff.mpr (h3 d (by simp)))
    refine ⟨'_', d :: w, bytes ('_' :: d :: w), rfl, ?_⟩
    have hsw : scan U '_' (d :: w ++ q) = scanWord U ('_' :: d :: w ++ q) := by
      simp [scan, hw, singleTok, hd]
    have hall : ∀ x ∈ '_' :: d :: w, isWord x = true := by
      intro x hx
      rcases List.mem_cons.mp hx with rfl | hx
      · decide
      · exact isWord_iff.mpr (h3 x hx)
    have hrun := run_eq U hall (hq rfl)
    have := scanWord_run U ('_' :: d :: w ++ q) (by rw [hrun]; exact ascii_word hall)
    have hlk : lookupKeyword ('_' :: d :: w) = none := by
      cases hl : lookupKeyword ('_' :: d :: w) with
      | none => rfl
      | some t => exact absurd rfl (keywordTable_head _ (lookupKeyword_mem hl))
    rw [hrun, hlk] at this
    rw [hsw, this]
    obtain ⟨m1, m2⟩ := matchByStrSize_none_of_head (s := '_' :: (d :: w ++ q)) (by simp)
    have m4 : (d :: w ++ q).takeWhile isWord = d :: w := takeWhile_append_stop
      (fun x hx => hall x (by simp [hx])) (hqw rfl)
    have hb : bytes ('_' :: d :: w) = w.length + 1 + 1 := (ascii_word hall).bytes
    unfold scanOther
    rw [List.cons_append, m1, m2, matchHex_none_of_head (by simp),
      matchInteger_none (by decide) (by decide) (by decide), matchString_none_of_head (by simp),
      matchRegularId_none (by decide), matchTemplateId_none_of_head (by simp),
      matchCustomId_none (by decide)]
    simp only [matchSpecialId, m4, regexToken]
    rw [hb]; simp
  | stringLiteral s =>
    obtain ⟨b, rfl, hb, ha⟩ := hp
    have hw : U.isWhite '"' = false := isWhite_false U (by decide) (by decide)
    have hi : U.isIdent '"' = false := by rw [isIdent_of_ascii U (by decide)]; decide
    refine ⟨'"', b ++ ['"'], bytes ('"' :: b ++ ['"']), rfl, ?_⟩
    have hsw : scan U '"' (b ++ ['"'] ++ q) = scanWord U ('"' :: (b ++ ['"'] ++ q)) := by
      simp [scan, hw, singleTok]
    have hrun : ('"' :: (b ++ ['"'] ++ q)).takeWhile U.isIdent = [] := by
      simp [List.takeWhile_cons, hi]
    have := scanWord_run U ('"' :: (b ++ ['"'] ++ q)) (by rw [hrun]; exact Ascii.nil)
    rw [hrun, lookupKeyword_none_of (.inl rfl)] at this
    rw [hsw, this]
    obtain ⟨m1, m2⟩ := matchByStrSize_none_of_head (s := '"' :: (b ++ ['"'] ++ q)) (by simp)
    have hm : matchString ('"' :: (b ++ ['"'] ++ q)) = some ('"' :: b ++ ['"']) := by
      simp only [matchString]
      rw [show b ++ ['"'] ++ q = b ++ '"' :: q by simp, stringBody_strict hb]
      rfl
    have hby : bytes ('"' :: b ++ ['"']) = b.length + 2 := by
      have : Ascii ('"' :: b ++ ['"']) := by
        rw [List.cons_append, Ascii.cons, Ascii.append, Ascii.cons]
        exact ⟨by decide, ha, by decide, Ascii.nil⟩
      rw [this.bytes]; simp
    unfold scanOther
    rw [m1, m2, matchHex_none_of_head (by simp),
      matchInteger_none (by decide) (by decide) (by decide), hm]
    simp only [regexToken, hby]
    simp
  | number s =>
    obtain ⟨sg, ds, rfl, hsg, hne, hd⟩ := hp
    have hd' : ∀ c ∈ ds, isDigit c = true := fun c hc => isDigit_iff.mpr (hd c hc)
    have hdw : ∀ c ∈ ds, isWord c = true := fun c hc => (digit_not (hd' c hc)).1
    have m4 : (ds ++ q).takeWhile isDigit = ds := takeWhile_append_stop hd' (hqd rfl)
    cases ds with
    | nil => exact absurd rfl hne
    | cons d ds =>
    obtain ⟨hw, hlo, hup, n1, n2, n3, n4, n6, n7⟩ := digit_not (hd' d (by simp))
    have hlen : bytes (d :: ds) = ds.length + 1 := (ascii_word hdw).bytes
    have hnohex : matchHex (d :: ds ++ q) = none := by
      unfold matchHex
      split
      · rename_i x s he
        split
        · rename_i hx
          exfalso
          have hxd : isDigit x = false := by simp at hx; rcases hx with rfl | rfl <;> decide
          have hxw : isWord x = true := by simp at hx; rcases hx with rfl | rfl <;> decide
          simp at he
          cases ds with
          | nil =>
            have h := he.2
            simp at h
            have := hqw rfl x (by rw [h]; rfl)
            rw [hxw] at this; simp at this
          | cons e ds =>
            simp at he
            have := hd' e (by simp)
            rw [he.2.1, hxd] at this; simp at this
        · rfl
      · rfl
    rcases hsg with rfl | rfl
    · refine ⟨d, ds, bytes (d :: ds), rfl, ?_⟩
      have hlk : lookupKeyword (d :: ds) = none := by
        cases hl : lookupKeyword (d :: ds) with
        | none => rfl
        | some t =>
          exfalso
          have hh : ∀ p ∈ keywordTable, ∀ c, p.1.head? = some c → isDigit c = false := by decide
          have := hh _ (lookupKeyword_mem hl) d rfl
          rw [hd' d (by simp)] at this; simp at this
      rw [scan_not_keyword U hdw n1 hlk (hq rfl)]
      obtain ⟨m1, m2⟩ := matchByStrSize_none_of_head (s := d :: (ds ++ q)) (by simp [n4])
      have hm : matchInteger (d :: (ds ++ q)) = some (d :: ds) := by
        rw [List.cons_append] at m4
        simp only [matchInteger]
        rw [m4]
        simp [n6, n7]
      unfold scanOther
      rw [List.cons_append] at hnohex
      rw [List.cons_append, m1, m2, hnohex, hm]
      simp only [regexToken, hlen]
      simp
    · refine ⟨'-', d :: ds, bytes ('-' :: d :: ds), rfl, ?_⟩
      have hw : U.isWhite '-' = false := isWhite_false U (by decide) (by decide)
      have hi : U.isIdent '-' = false := by rw [isIdent_of_ascii U (by decide)]; decide
      have hn : U.isNumeric d = true := by
        rw [isNumeric_of_ascii U (isWord_ascii (hdw d (by simp)))]; exact hd' d (by simp)
      have hgt : d ≠ '>' := by
        rintro rfl; have := hd' '>' (by simp); revert this; decide
      have hsw : scan U '-' (d :: ds ++ q) = scanWord U ('-' :: (d :: ds ++ q)) := by
        simp [scan, hw, singleTok, hn, hgt]
      have hrun : ('-' :: (d :: ds ++ q)).takeWhile U.isIdent = [] := by
        simp [List.takeWhile_cons, hi]
      have := scanWord_run U ('-' :: (d :: ds ++ q)) (by rw [hrun]; exact Ascii.nil)
      rw [hrun, lookupKeyword_none_of (.inl rfl)] at this
      rw [hsw, this]
      obtain ⟨m1, m2⟩ := matchByStrSize_none_of_head (s := '-' :: (d :: ds ++ q)) (by simp)
      have hm : matchInteger ('-' :: (d :: ds ++ q)) = some ('-' :: d :: ds) := by
        simp only [matchInteger]
        rw [m4]
        simp
      have h1 : ('-' : Char).utf8Size = 1 := by decide
      unfold scanOther
      rw [m1, m2, matchHex_none_of_head (by simp), hm]
      simp only [regexToken]
      rw [bytes_cons, hlen, h1]; simp
  | hexNumber s =>
    obtain ⟨x, ds, rfl, hx, hd, h2⟩ := hp
    have hd' : ∀ c ∈ ds, isHex c = true := fun c hc => isHex_iff.mpr (hd c hc)
    have hxw : isWord x = true := by rcases hx with rfl | rfl <;> decide
    have hall : ∀ c ∈ '0' :: x :: ds, isWord c = true := by
      intro c hc
      simp only [List.mem_cons] at hc
      rcases hc with rfl | rfl | hc
      · decide
      · exact hxw
      · exact isWord_iff.mpr (hex_name (hd c hc))
    have hqh : ∀ c, q.head? = some c → isHex c = false := by
      intro c hc
      cases hh : isHex c with
      | false => rfl
      | true => exact absurd (hex_name (isHex_iff.mp hh)) (hq rfl c hc).2
    have hlk : lookupKeyword ('0' :: x :: ds) = none := by
      cases hl : lookupKeyword ('0' :: x :: ds) with
      | none => rfl
      | some t =>
        exfalso
        have hh : ∀ p ∈ keywordTable, p.1.head? ≠ some '0' := by decide
        exact hh _ (lookupKeyword_mem hl) rfl
    refine ⟨'0', x :: ds, bytes ('0' :: x :: ds), rfl, ?_⟩
    rw [scan_not_keyword U hall (by decide) hlk (hq rfl)]
    obtain ⟨m1, m2⟩ := matchByStrSize_none_of_head (s := '0' :: (x :: ds ++ q)) (by simp)
    have hm : matchHex ('0' :: (x :: ds ++ q)) = some ('0' :: x :: ds) := by
      simp only [matchHex, List.cons_append]
      rw [hexPairs_exact hd' h2 hqh]
      rcases hx with rfl | rfl <;> simp
    unfold scanOther
    rw [List.cons_append, m1, m2, hm]
    simp only [regexToken]
    rw [(ascii_word hall).bytes]; simp
  | byStrWithSize s =>
    obtain ⟨ds, rfl, hne, hd⟩ := hp
    have hd' : ∀ c ∈ ds, isDigit c = true := fun c hc => isDigit_iff.mpr (hd c hc)
    have hall : ∀ c ∈ str! "ByStr" ++ ds, isWord c = true := by
      intro c hc
      rcases List.mem_append.mp hc with h | h
      · have : ∀ c ∈ str! "ByStr", isWord c = true := by decide
        exact this c h
      · exact (digit_not (hd' c h)).1
    have hlk : lookupKeyword (str! "ByStr" ++ ds) = none := by
      cases hl : lookupKeyword (str! "ByStr" ++ ds) with
      | none => rfl
      | some t =>
        exfalso
        have hh : ∀ p ∈ keywordTable, p.1.head? ≠ some 'B' := by decide
        exact hh _ (lookupKeyword_mem hl) rfl
    refine ⟨'B', str! "yStr" ++ ds, bytes (str! "ByStr" ++ ds), rfl, ?_⟩
    have := scan_not_keyword U (c := 'B') (w := str! "yStr" ++ ds) hall (by decide) hlk (hq rfl)
    rw [this]
    have m4 : (ds ++ q).takeWhile isDigit = ds := takeWhile_append_stop hd' (hqd rfl)
    have hm : matchByStrSize ('B' :: (str! "yStr" ++ ds) ++ q) = some (str! "ByStr" ++ ds) := by
      simp only [matchByStrSize, List.cons_append, List.nil_append]
      rw [m4]
      simp
    unfold scanOther
    rw [hm]
    simp only [regexToken]
    rw [(ascii_word hall).bytes]; simp
  | byStr =>
    have hall : ∀ c ∈ str! "ByStr", isWord c = true := by decide
    refine ⟨'B', str! "yStr", 5, rfl, ?_⟩
    have := scan_not_keyword U (c := 'B') (w := str! "yStr") hall (by decide) (by decide) (hq rfl)
    rw [this]
    have hqd := hqd rfl
    have hm : matchByStrSize ('B' :: str! "yStr" ++ q) = none := by
      simp only [matchByStrSize, List.cons_append, List.nil_append]
      have : q.takeWhile isDigit = [] := by
        have := takeWhile_append_stop (p := isDigit) (w := []) (q := q) (by simp) hqd
        simpa using this
      rw [this]
    unfold scanOther
    rw [hm]
    simp [startsByStr]
  | underscore =>
    refine ⟨'_', [], 1, rfl, ?_⟩
    have hw : U.isWhite '_' = false := isWhite_false U (by decide) (by decide)
    cases q with
    | nil => simp [scan, hw]
    | cons d q =>
      have : U.isIdent d = false := by
        rw [isIdent_of_ascii U (hq rfl d rfl).1]; exact hqw rfl d rfl
      simp [scan, hw, this]
  | minus =>
    refine ⟨'-', [], 1, rfl, ?_⟩
    have hw : U.isWhite '-' = false := isWhite_false U (by decide) (by decide)
    cases q with
    | nil => simp [scan, hw]
    | cons d q =>
      obtain ⟨h1, _, _, _, _, h6⟩ := hs d rfl
      obtain ⟨h6, h7⟩ := h6 rfl
      have : U.isNumeric d = false := by
        rw [isNumeric_of_ascii U h1]
        cases hd : isDigit d with
        | false => rfl
        | true => exact absurd (isDigit_iff.mp hd) h7
      simp [scan, hw, this, h6]
  | equals =>
    refine ⟨'=', [], 1, rfl, ?_⟩
    have hw : U.isWhite '=' = false := isWhite_false U (by decide) (by decide)
    cases q with
    | nil => simp [scan, hw, singleTok]
    | cons d q =>
      have := (hs d rfl).2.2.1 rfl
      simp [scan, hw, this, singleTok]
  | colon =>
    refine ⟨':', [], 1, rfl, ?_⟩
    have hw : U.isWhite ':' = false := isWhite_false U (by decide) (by decide)
    cases q with
    | nil => simp [scan, hw, singleTok]
    | cons d q =>
      have := (hs d rfl).2.2.2.1 rfl
      simp [scan, hw, this, singleTok]
  | openParen =>
    refine ⟨'(', [], 1, rfl, ?_⟩
    have hw : U.isWhite '(' = false := isWhite_false U (by decide) (by decide)
    cases q with
    | nil => simp [scan, hw, singleTok]
    | cons d q =>
      have := (hs d rfl).2.2.2.2.1 rfl
      simp [scan, hw, this, singleTok]
  | doubleArrow =>
    refine ⟨'=', ['>'], 2, rfl, ?_⟩
    have hw : U.isWhite '=' = false := isWhite_false U (by decide) (by decide)
    simp [scan, hw]
  | arrow =>
    refine ⟨'-', ['>'], 2, rfl, ?_⟩
    have hw : U.isWhite '-' = false := isWhite_false U (by decide) (by decide)
    simp [scan, hw]
  | leftArrow =>
    refine ⟨'<', ['-'], 2, rfl, ?_⟩
    have hw : U.isWhite '<' = false := isWhite_false U (by decide) (by decide)
    simp [scan, hw]
  | colonEquals =>
    refine ⟨':', ['='], 2, rfl, ?_⟩
    have hw : U.isWhite ':' = false := isWhite_false U (by decide) (by decide)
    simp [scan, hw]
  | plus => exact ⟨'+', [], 1, rfl, by
      simp [scan, isWhite_false U (c := '+') (by decide) (by decide), singleTok]⟩
  | asterisk => exact ⟨'*', [], 1, rfl, by
      simp [scan, isWhite_false U (c := '*') (by decide) (by decide), singleTok]⟩
  | semicolon => exact ⟨';', [], 1, rfl, by
      simp [scan, isWhite_false U (c := ';') (by decide) (by decide), singleTok]⟩
  | dot => exact ⟨'.', [], 1, rfl, by
      simp [scan, isWhite_false U (c := '.') (by decide) (by decide), singleTok]⟩
  | pipe => exact ⟨'|', [], 1, rfl, by
      simp [scan, isWhite_false U (c := '|') (by decide) (by decide), singleTok]⟩
  | openBracket => exact ⟨'[', [], 1, rfl, by
      simp [scan, isWhite_false U (c := '[') (by decide) (by decide), singleTok]⟩
  | closeBracket => exact ⟨']', [], 1, rfl, by
      simp [scan, isWhite_false U (c := ']') (by decide) (by decide), singleTok]⟩
  | closeParen => exact ⟨')', [], 1, rfl, by
      simp [scan, isWhite_false U (c := ')') (by decide) (by decide), singleTok]⟩
  | openBrace => exact ⟨'{', [], 1, rfl, by
      simp [scan, isWhite_false U (c := '{') (by decide) (by decide), singleTok]⟩
  | closeBrace => exact ⟨'}', [], 1, rfl, by
      simp [scan, isWhite_false U (c := '}') (by decide) (by decide), singleTok]⟩
  | comma => exact ⟨',', [], 1, rfl, by
      simp [scan, isWhite_false U (c := ',') (by decide) (by decide), singleTok]⟩
  | ampersand => exact ⟨'&', [], 1, rfl, by
      simp [scan, isWhite_false U (c := '&') (by decide) (by decide), singleTok]⟩
  | at_ => exact ⟨'@', [], 1, rfl, by
      simp [scan, isWhite_false U (c := '@') (by decide) (by decide), singleTok]⟩
  | _ => exact hkw rfl _ (by decide) rfl

theorem lexToks_printable (U : CharClass) {t : Token} {q : Str} (hp : Printable t)
    (hs : Separated t q) : lexToks U (t.text ++ q) = (lexToks U q).map (t :: ·) := by
  obtain ⟨c, w, len, h1, h2⟩ := scan_printable U hp hs
  rw [h1, List.cons_append, lexToks_cons, h2]
  simp

theorem lexToks_layout (U : CharClass) {lay : Str} (h : Layout lay) (q : Str) :
    lexToks U (lay ++ q) = lexToks U q := by
  induction h with
  | nil => rfl
  | white c s hc _ ih =>
    have hascii : c.toNat < 128 := by rcases hc with rfl | hc; decide; omega
    rw [List.cons_append, lexToks_cons]
    have : scan U c (s ++ q) = .white := by
      unfold scan; rw [if_pos ((isWhite_of_ascii U hascii).mpr hc)]
    rw [this]; exact ih
  | comment body s hb _ ih =>
    have := lexToks_comment U body (s ++ q) hb
    simp only [List.cons_append, List.nil_append, List.append_assoc] at this ⊢
    rw [this, ih]

end Verif
