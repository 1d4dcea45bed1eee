import Verif.Proofs.LexTail
import Verif.Props.Lexer1
import Verif.Spec.Cut
/-
What cutting off the end of an ASCII document does to its tokens (C83).
-/
namespace Verif

theorem NoEscape.infix {a b : Str} (h : NoEscape b) (hi : a <:+: b) : NoEscape a := fun hs => h (hs.trans hi)

/-- characters taken by a step after the first one -/
def Scan.taken : Scan → Nat
  | .white => 0
  | .comment k => k
  | .token _ _ k => k
  | .panic => 0

/-! ### Runs of name characters -/

theorem Local.run {f : Str → Option Str} (h : Local f) (hpre : ∀ s m, f s = some m → m <+: s) {w X : Str}
    (hw : ∀ m, f (w ++ X) = some m → ∀ c ∈ m, isWord c = true)
    (hX : ∀ c, X.head? = some c → isWord c = false) : f (w ++ X) = f w := by
  cases hf : f (w ++ X) with
  | none =>
    cases hg : f w with
    | none => rfl
    | some m => have := h.ext w X (by simp [hg]); simp [hf] at this
  | some m =>
    refine (h.cut w X m hf ?_).symm
    have hm := hw m hf
    obtain ⟨q, hq⟩ := hpre _ _ hf
    by_cases hl : m.length ≤ w.length
    · exact hl
    exfalso
    have hlt : w.length < m.length := by omega
    cases X with
    | nil =>
      have := congrArg List.length hq
      simp at this; omega
    | cons c X =>
      have h1 : (m ++ q)[w.length]? = some c := by rw [hq]; simp
      rw [List.getElem?_append_left hlt] at h1
      have := hm c (List.mem_of_getElem? h1)
      rw [hX c rfl] at this
      cases this

theorem hexDigit_word {c : Char} (h : HexDigit c) : isWord c = true := by
  have := isHex_iff.2 h
  simp only [isHex, isWord, isDigit, isLower, isUpper, Bool.or_eq_true, Bool.and_eq_true, decide_eq_true_eq] at this ⊢
  left
  rcases this with (h | h) | h
  · right; exact h
  · left; left; omega
  · left; right; omega

theorem digit_word {c : Char} (h : isDigit c = true) : isWord c = true := by simp [isWord, h]

theorem scanOther_run {w X : Str} (hne : w ≠ []) (hw : ∀ c ∈ w, isWord c = true)
    (hX : ∀ c, X.head? = some c → isWord c = false) : scanOther (w ++ X) = scanOther w := by
  obtain ⟨c, v, rfl⟩ := List.exists_cons_of_ne_nil hne
  have hc := hw c (by simp)
  have hn : ∀ d, isWord d = false → c ≠ d := by rintro d hd rfl; rw [hc] at hd; cases hd
  have hplus := hn '+' (by decide)
  have hminus := hn '-' (by decide)
  have hquote := hn '"' (by decide)
  have htick := hn '\'' (by decide)
  have e1 : matchByStrSize (c :: v ++ X) = matchByStrSize (c :: v) := by
    refine local_byStrSize.run (fun s m h => (matchByStrSize_spec h).1) ?_ hX
    intro m hm d hd
    unfold matchByStrSize at hm
    split at hm
    · split at hm
      · cases hm
      · injection hm with hm; subst hm
        simp only [List.mem_cons] at hd
        rcases hd with rfl | rfl | rfl | rfl | rfl | hd
        · decide
        · decide
        · decide
        · decide
        · decide
        · exact digit_word (mem_takeWhile_imp hd)
    · cases hm
  have e2 : startsByStr (c :: v ++ X) = startsByStr (c :: v) := by
    have : startsByStr (c :: v ++ X) = true ↔ startsByStr (c :: v) = true := by
      rw [starts_iff, starts_iff]
      constructor
      · intro h
        refine prefix_of_append h ?_
        obtain ⟨q, hq⟩ := h
        by_cases hl : (str! "ByStr").length ≤ (c :: v).length
        · exact hl
        exfalso
        have hlt : (c :: v).length < (str! "ByStr").length := by omega
        cases X with
        | nil =>
          have := congrArg List.length hq
          simp at this hlt; omega
        | cons d X =>
          have h1 : (str! "ByStr" ++ q)[(c :: v).length]? = some d := by rw [hq]; simp
          rw [List.getElem?_append_left hlt] at h1
          have := List.mem_of_getElem? h1
          have : isWord d = true := by
            simp only [List.mem_cons, List.not_mem_nil, or_false] at this
            rcases this with rfl | rfl | rfl | rfl | rfl <;> decide
          rw [hX d rfl] at this
          cases this
      · intro h; exact h.trans (List.prefix_append _ _)
    cases h1 : startsByStr (c :: v ++ X) <;> cases h2 : startsByStr (c :: v) <;> simp_all
  have e3 : matchHex (c :: v ++ X) = matchHex (c :: v) := by
    refine local_hex.run (fun s m h => (matchHex_spec h).1) ?_ hX
    intro m hm d hd
    unfold matchHex at hm
    split at hm
    · split at hm
      · rename_i hx
        injection hm with hm; subst hm
        simp only [List.mem_cons] at hd
        rcases hd with rfl | rfl | hd
        · decide
        · simp only [Bool.or_eq_true, beq_iff_eq] at hx
          rcases hx with rfl | rfl <;> decide
        · exact hexDigit_word ((hexPairs_shape _).1 d hd)
      · cases hm
    · cases hm
  have e4 : matchInteger (c :: v ++ X) = matchInteger (c :: v) := by
    refine local_integer.run (fun s m h => (matchInteger_spec h).1) ?_ hX
    intro m hm d hd
    rw [List.cons_append] at hm
    unfold matchInteger at hm
    simp only [beq_iff_eq, hplus, hminus, Bool.or_eq_true, or_self, if_false] at hm
    split at hm
    · cases hm
    · injection hm with hm; subst hm
      exact digit_word (mem_takeWhile_imp hd)
  have e5 : matchString (c :: v ++ X) = none := matchString_none_of_head (by simpa using hquote)
  have e5' : matchString (c :: v) = none := matchString_none_of_head (by simpa using hquote)
  have e6 : matchRegularId (c :: v ++ X) = matchRegularId (c :: v) := by
    refine local_regularId.run (fun s m h => (matchRegularId_spec h).1) ?_ hX
    intro m hm d hd
    simp only [List.cons_append, matchRegularId] at hm
    split at hm
    · injection hm with hm; subst hm
      simp only [List.mem_cons] at hd
      rcases hd with rfl | hd
      · exact hc
      · exact mem_takeWhile_imp hd
    · cases hm
  have e7 : matchTemplateId (c :: v ++ X) = none := matchTemplateId_none_of_head (by simpa using htick)
  have e7' : matchTemplateId (c :: v) = none := matchTemplateId_none_of_head (by simpa using htick)
  have e8 : matchCustomId (c :: v ++ X) = matchCustomId (c :: v) := by
    refine local_customId.run (fun s m h => (matchCustomId_spec h).1) ?_ hX
    intro m hm d hd
    simp only [List.cons_append, matchCustomId] at hm
    split at hm
    · injection hm with hm; subst hm
      simp only [List.mem_cons] at hd
      rcases hd with rfl | hd
      · exact hc
      · exact mem_takeWhile_imp hd
    · cases hm
  have e9 : matchSpecialId (c :: v ++ X) = matchSpecialId (c :: v) := by
    refine local_specialId.run (fun s m h => (matchSpecialId_spec h).1) ?_ hX
    intro m hm d hd
    rw [List.cons_append, specialId_cons] at hm
    split at hm
    · injection hm with hm; subst hm
      simp only [List.mem_cons] at hd
      rcases hd with rfl | hd
      · decide
      · exact mem_takeWhile_imp hd
    · cases hm
  simp only [scanOther, e1, e2, e3, e4, e5, e5', e6, e7, e7', e8, e9]

theorem scanWord_run_cut (U : CharClass) {w X : Str} (hne : w ≠ []) (hw : ∀ c ∈ w, isWord c = true)
    (hX : ∀ c, X.head? = some c → c.toNat < 128 ∧ isWord c = false) : scanWord U (w ++ X) = scanWord U w := by
  have hn : ∀ c, X.head? = some c → c.toNat < 128 ∧ ¬ NameChar c := fun c hc =>
    ⟨(hX c hc).1, fun h => by have := (hX c hc).2; rw [isWord_iff.2 h] at this; cases this⟩
  have r1 := run_eq U hw hn
  have r2 : w.takeWhile U.isIdent = w := by
    have := run_eq U hw (q := []) (by simp)
    simpa using this
  rw [scanWord_run U (w ++ X) (by rw [r1]; exact ascii_word hw), scanWord_run U w (by rw [r2]; exact ascii_word hw),
    r1, r2, scanOther_run hne hw (fun c hc => (hX c hc).2)]

/-- a text of name characters only, or its first run -/
theorem run_split (r : Str) : (∀ c ∈ r, isWord c = true) ∨
    ∃ w d X, r = w ++ d :: X ∧ (∀ c ∈ w, isWord c = true) ∧ isWord d = false := by
  induction r with
  | nil => left; simp
  | cons c r ih =>
    cases hc : isWord c with
    | false => exact .inr ⟨[], c, r, rfl, by simp, hc⟩
    | true =>
      rcases ih with ih | ⟨w, d, X, rfl, hw, hd⟩
      · left; intro e he; rcases List.mem_cons.1 he with rfl | he
        · exact hc
        · exact ih e he
      · refine .inr ⟨c :: w, d, X, rfl, ?_, hd⟩
        intro e he; rcases List.mem_cons.1 he with rfl | he
        · exact hc
        · exact hw e he

/-! ### Strings -/

theorem stringBody_quote (q : Str) : stringBody ('"' :: q) = some ['"'] := by
  unfold stringBody; simp

theorem stringBody_cutplain (n : Nat) : ∀ (b q : Str), b.length ≤ n → '"' ∉ b → NoEscape (b ++ '"' :: q) →
    stringBody (b ++ '"' :: q) = some (b ++ ['"']) := by
  induction n with
  | zero =>
    intro b q hl hb he
    obtain rfl : b = [] := List.length_eq_zero_iff.1 (by omega)
    exact stringBody_quote q
  | succ n ih =>
    intro b q hl hb he
    match b with
    | [] => exact stringBody_quote q
    | [c] =>
      have hc : c ≠ '"' := by rintro rfl; simp at hb
      have hbs : c ≠ '\\' := by
        rintro rfl
        exact he ⟨[], q, rfl⟩
      rw [List.cons_append, List.nil_append, stringBody]
      simp [hc, hbs, stringBody_quote]
    | c :: d :: b =>
      have hc : c ≠ '"' := by rintro rfl; simp at hb
      have hd : d ≠ '"' := by rintro rfl; simp at hb
      have h1 := ih (d :: b) q (by simpa using hl) (fun h => hb (List.mem_cons_of_mem _ h))
        (he.infix (List.suffix_cons _ _).isInfix)
      have h2 := ih b q (by simp at hl; omega) (fun h => hb (by simp [h]))
        (he.infix ((List.suffix_cons _ _).trans (List.suffix_cons _ _)).isInfix)
      simp only [List.cons_append] at h1 ⊢
      unfold stringBody
      simp only [beq_iff_eq, hc, if_false]
      by_cases hbs : c = '\\'
      · simp only [hbs, if_true]
        by_cases hnl : d = '\n'
        · simp only [hnl, if_true]
          rw [hnl] at h1
          rw [h1]; rfl
        · simp only [hnl, if_false, h2]
      · simp only [hbs, if_false, h1]; rfl

theorem first_quote {s : Str} (h : '"' ∈ s) : ∃ b q, s = b ++ '"' :: q ∧ '"' ∉ b := by
  induction s with
  | nil => simp at h
  | cons c s ih =>
    by_cases hc : c = '"'
    · exact ⟨[], s, by simp [hc], by simp⟩
    · obtain ⟨b, q, rfl, hb⟩ := ih (by simpa [Ne.symm hc] using h)
      exact ⟨c :: b, q, rfl, by simp [Ne.symm hc, hb]⟩

/-! ### One step -/

/-- with at least one more character the step is fixed, or a comment begins, or the word scanner decides -/
theorem scan_two (U : CharClass) (ch d : Char) : (∃ o, ∀ s, scan U ch (d :: s) = o) ∨ (ch = '(' ∧ d = '*') ∨
    (singleTok ch = none ∧ ∀ s, scan U ch (d :: s) = scanWord U (ch :: d :: s)) := by
  by_cases h0 : U.isWhite ch = true
  · exact .inl ⟨.white, fun s => by simp [scan, h0]⟩
  by_cases h1 : (ch == '=' && some d == some '>') = true
  · exact .inl ⟨_, fun s => by simp only [scan, h0, List.head?_cons, h1, if_true]; rfl⟩
  by_cases h2 : (ch == '-' && some d == some '>') = true
  · exact .inl ⟨_, fun s => by simp only [scan, h0, List.head?_cons, h1, h2, if_true]; rfl⟩
  by_cases h3 : (ch == '-' && !(Option.map U.isNumeric (some d)).getD false) = true
  · exact .inl ⟨_, fun s => by simp only [scan, h0, List.head?_cons, h1, h2, h3, if_true]; rfl⟩
  by_cases h4 : (ch == '<' && some d == some '-') = true
  · exact .inl ⟨_, fun s => by simp only [scan, h0, List.head?_cons, h1, h2, h3, h4, if_true]; rfl⟩
  by_cases h5 : (ch == ':' && some d == some '=') = true
  · exact .inl ⟨_, fun s => by simp only [scan, h0, List.head?_cons, h1, h2, h3, h4, h5, if_true]; rfl⟩
  by_cases h6 : (ch == '_' && !(Option.map U.isIdent (some d)).getD false) = true
  · exact .inl ⟨_, fun s => by simp only [scan, h0, List.head?_cons, h1, h2, h3, h4, h5, h6, if_true]; rfl⟩
  by_cases h7 : (ch == '(' && some d == some '*') = true
  · simp only [Bool.and_eq_true, beq_iff_eq, Option.some.injEq] at h7
    exact .inr (.inl h7)
  cases h8 : singleTok ch with
  | some t =>
    refine .inl ⟨.token t 1 0, fun s => ?_⟩
    simp only [scan, h0, List.head?_cons, h1, h2, h3, h4, h5, h6, h7, h8]
    rfl
  | none =>
    refine .inr (.inr ⟨rfl, fun s => ?_⟩)
    simp only [scan, h0, List.head?_cons, h1, h2, h3, h4, h5, h6, h7, h8]
    rfl

theorem takeWhile_inner {f : Char → Bool} {r y : Str} (h : ∃ c ∈ r, f c = false) :
    (r ++ y).takeWhile f = r.takeWhile f := by
  induction r with
  | nil => obtain ⟨c, hc, -⟩ := h; simp at hc
  | cons c r ih =>
    cases hc : f c with
    | false => simp [List.takeWhile_cons, hc]
    | true =>
      obtain ⟨d, hd, hf⟩ := h
      rcases List.mem_cons.1 hd with rfl | hd
      · rw [hc] at hf; cases hf
      · simp [List.takeWhile_cons, hc, ih ⟨d, hd, hf⟩]

theorem scanWord_sign (U : CharClass) {ch : Char} (ha : ch.toNat < 128) (hw : isWord ch = false) (s : Str) :
    scanWord U (ch :: s) = scanOther (ch :: s) := by
  have hr : (ch :: s).takeWhile U.isIdent = [] := by
    simp [List.takeWhile_cons, isIdent_of_ascii U ha, hw]
  rw [scanWord_run U _ (by rw [hr]; exact Ascii.nil), hr, lookupKeyword_none_of (.inl rfl)]

theorem scanOther_sign {ch : Char} (hw : isWord ch = false) (hp : ch ≠ '+') (s : Str) :
    scanOther (ch :: s) =
      if ch = '-' then (match s.takeWhile isDigit with
        | [] => .token .unknown 0 0
        | ds => regexToken (.number ('-' :: ds)) ('-' :: ds))
      else if ch = '"' then (match stringBody s with
        | some m => regexToken (.stringLiteral ('"' :: m)) ('"' :: m)
        | none => .token .unknown 0 0)
      else if ch = '\'' then (match matchCustomId s with
        | some m => regexToken (.templateIdentifier ('\'' :: m)) ('\'' :: m)
        | none => .token .unknown 0 0)
      else .token .unknown 0 0 := by
  have hn : ∀ d, isWord d = true → ch ≠ d := by rintro d hd rfl; rw [hw] at hd; cases hd
  have hl : isLower ch = false := by
    cases h : isLower ch with
    | false => rfl
    | true => simp [isWord, h] at hw
  have hu : isUpper ch = false := by
    cases h : isUpper ch with
    | false => rfl
    | true => simp [isWord, h] at hw
  have hd : isDigit ch = false := by
    cases h : isDigit ch with
    | false => rfl
    | true => simp [isWord, h] at hw
  obtain ⟨e1, e2⟩ := matchByStrSize_none_of_head (s := ch :: s) (by simpa using hn 'B' (by decide))
  have e3 := matchHex_none_of_head (s := ch :: s) (by simpa using hn '0' (by decide))
  have e6 : matchRegularId (ch :: s) = none := matchRegularId_none hl
  have e8 : matchCustomId (ch :: s) = none := matchCustomId_none hu
  have e9 : matchSpecialId (ch :: s) = none := by rw [specialId_cons, if_neg (hn '_' (by decide))]
  simp only [scanOther, e1, e2, e3, e6, e8, e9, string_cons, templateId_cons]
  by_cases h1 : ch = '-'
  · subst h1
    simp only [matchInteger, if_true]
    cases s.takeWhile isDigit <;> simp
  · rw [matchInteger_none hd hp h1]
    simp only [h1, if_false]
    by_cases h2 : ch = '"'
    · subst h2
      simp only [if_true]
      cases stringBody s <;> simp
    · simp only [h2, if_false]
      by_cases h3 : ch = '\''
      · subst h3
        simp only [if_true]
        cases matchCustomId s <;> simp
      · simp [h3]

theorem scan_cut (U : CharClass) (ch : Char) (r y : Str) (ha : Ascii (ch :: (r ++ y)))
    (he : NoEscape (ch :: (r ++ y))) :
    scan U ch (r ++ y) = scan U ch r ∨ (∃ k, scan U ch r = .comment k ∧ r.length ≤ k) ∨ (ch = '=' ∧ r = []) ∨
    (∃ l k, scan U ch r = .token .unknown l k) ∨ (')' ∉ ch :: r ∧ '=' ∉ ch :: r) := by
  have hac : ch.toNat < 128 := (Ascii.cons.1 ha).1
  have hno : ∀ c : Char, isWord c = true → ')' ≠ c ∧ '=' ≠ c := by
    intro c hc
    constructor
    · rintro rfl; revert hc; decide
    · rintro rfl; revert hc; decide
  cases r with
  | nil =>
    by_cases h1 : ch = '='
    · exact .inr (.inr (.inl ⟨h1, rfl⟩))
    by_cases h2 : ch = ')'
    · subst h2
      left
      have hw : U.isWhite ')' = false := by
        cases h : U.isWhite ')' with
        | false => rfl
        | true =>
          rcases (isWhite_of_ascii U (by decide)).1 h with h | h
          · revert h; decide
          · revert h; decide
      simp [scan, hw, singleTok]
    · exact .inr (.inr (.inr (.inr ⟨by simpa using Ne.symm h2, by simpa using Ne.symm h1⟩)))
  | cons d r =>
    rw [List.cons_append] at ha he ⊢
    rcases scan_two U ch d with ⟨o, ho⟩ | ⟨rfl, rfl⟩ | ⟨hs, ho⟩
    · left; rw [ho, ho]
    · rw [scan_open, scan_open]
      rcases comment_cases r with ⟨body, q, rfl, hb⟩ | hn
      · left
        rw [commentLen_closed q hb, List.append_assoc, List.cons_append, List.cons_append, commentLen_closed _ hb]
      · right; left
        exact ⟨_, rfl, by rw [commentLen_open hn]; simp; omega⟩
    · rw [ho, ho]
      by_cases hw : isWord ch = true
      · rcases run_split (d :: r) with hall | ⟨w, e, X, hX, hww, hee⟩
        · refine .inr (.inr (.inr (.inr ?_)))
          have : ∀ c ∈ ch :: d :: r, ')' ≠ c ∧ '=' ≠ c := by
            intro c hc
            rcases List.mem_cons.1 hc with rfl | hc
            · exact hno _ hw
            · exact hno _ (hall c hc)
          exact ⟨fun h => (this _ h).1 rfl, fun h => (this _ h).2 rfl⟩
        · left
          have hea : e.toNat < 128 := by
            apply (Ascii.cons.1 ha).2
            rw [← List.cons_append, hX]; simp
          have hcw : ∀ c ∈ ch :: w, isWord c = true := by
            intro c hc
            rcases List.mem_cons.1 hc with rfl | hc
            · exact hw
            · exact hww c hc
          have k1 := scanWord_run_cut U (w := ch :: w) (X := e :: X) (by simp) hcw
            (by intro c hc; simp at hc; subst hc; exact ⟨hea, hee⟩)
          have k2 := scanWord_run_cut U (w := ch :: w) (X := e :: (X ++ y)) (by simp) hcw
            (by intro c hc; simp at hc; subst hc; exact ⟨hea, hee⟩)
          rw [← List.cons_append, hX]
          simp only [List.cons_append, List.append_assoc] at k1 k2 ⊢
          rw [k1, k2]
      · have hw' : isWord ch = false := by simpa using hw
        have hp : ch ≠ '+' := by rintro rfl; simp [singleTok] at hs
        rw [scanWord_sign U hac hw', scanWord_sign U hac hw', scanOther_sign hw' hp, scanOther_sign hw' hp]
        by_cases h1 : ch = '-'
        · subst h1
          simp only [if_true]
          by_cases hall : ∃ c ∈ d :: r, isDigit c = false
          · left
            rw [← List.cons_append, takeWhile_inner hall]
          · refine .inr (.inr (.inr (.inr ?_)))
            have : ∀ c ∈ '-' :: d :: r, ')' ≠ c ∧ '=' ≠ c := by
              intro c hc
              rcases List.mem_cons.1 hc with rfl | hc
              · decide
              · refine hno c (digit_word ?_)
                cases hd : isDigit c with
                | true => rfl
                | false => exact absurd ⟨c, hc, hd⟩ hall
            exact ⟨fun h => (this _ h).1 rfl, fun h => (this _ h).2 rfl⟩
        · simp only [h1, if_false]
          by_cases h2 : ch = '"'
          · subst h2
            simp only [if_true]
            by_cases hq : '"' ∈ d :: r
            · left
              obtain ⟨b, q, hbq, hb⟩ := first_quote hq
              have he' := he.infix (List.suffix_cons _ _).isInfix
              rw [← List.cons_append, hbq] at he'
              have h3 := stringBody_cutplain b.length b q (Nat.le_refl _) hb
                (he'.infix (List.prefix_append _ _).isInfix)
              have h4 := stringBody_cutplain b.length b (q ++ y) (Nat.le_refl _) hb (by simpa using he')
              rw [← List.cons_append, hbq, List.append_assoc, List.cons_append, h3, h4]
            · right; right; right; left
              rw [stringBody_none.2 hq]
              exact ⟨_, _, rfl⟩
          · simp only [h2, if_false]
            by_cases h3 : ch = '\''
            · subst h3
              simp only [if_true]
              by_cases hup : isUpper d = true
              · simp only [matchCustomId, hup, if_true]
                by_cases hall : ∃ c ∈ r, isWord c = false
                · left; rw [takeWhile_inner hall]
                · refine .inr (.inr (.inr (.inr ?_)))
                  have : ∀ c ∈ '\'' :: d :: r, ')' ≠ c ∧ '=' ≠ c := by
                    intro c hc
                    rcases List.mem_cons.1 hc with rfl | hc
                    · decide
                    rcases List.mem_cons.1 hc with rfl | hc
                    · exact hno _ (by simp [isWord, hup])
                    · refine hno c ?_
                      cases hd : isWord c with
                      | true => rfl
                      | false => exact absurd ⟨c, hc, hd⟩ hall
                  exact ⟨fun h => (this _ h).1 rfl, fun h => (this _ h).2 rfl⟩
              · left
                simp [matchCustomId, hup]
            · left; simp only [h3, if_false]

/-! ### All tokens -/

theorem lexToks_some (U : CharClass) (s : Str) (ha : Ascii s) : ∃ ts, lexToks U s = some ts := by
  obtain ⟨ts, h⟩ := C02_ascii_no_panic U s ha
  exact ⟨_, by rw [lexToks, h]; rfl⟩

theorem lexToks_text {U : CharClass} {s : Str} {ts : List Token} (h : lexToks U s = some ts) {t : Token} (ht : t ∈ ts)
    (hu : t ≠ .unknown) : t.text <:+: s := by
  unfold lexToks at h
  obtain ⟨xs, hx, rfl⟩ := Option.map_eq_some_iff.1 h
  obtain ⟨x, hm, rfl⟩ := List.mem_map.1 ht
  obtain ⟨pre, post, e, -⟩ := C05_text_is_slice U s x (by rw [yielded_of_lexDoc hx]; exact hm) hu
  exact ⟨pre, post, e.symm⟩

theorem scan_taken {U : CharClass} {ch : Char} {r : Str} (ha : Ascii (ch :: r)) : (scan U ch r).taken ≤ r.length := by
  cases h : scan U ch r with
  | white => exact Nat.zero_le _
  | panic => exact Nat.zero_le _
  | comment k =>
    obtain ⟨r, rfl, rfl, rfl⟩ := scan_comment_inv h
    show 1 + _ ≤ _
    rcases comment_cases r with ⟨body, q, rfl, hb⟩ | hn
    · rw [commentLen_closed q hb]; simp; omega
    · rw [commentLen_open hn]; simp; omega
  | token t l k =>
    obtain ⟨m, hm⟩ := scan_lexeme h
    show k ≤ _
    by_cases hu : t = .unknown
    · have := hm.unknown hu; omega
    · obtain ⟨-, -, h3⟩ := hm.text hu
      have h4 := (ha.prefix hm.pre).bytes
      have h5 := hm.pre.length_le
      simp at h5
      omega

theorem lexToks_step (U : CharClass) (ch : Char) (r : Str) : lexToks U (ch :: r) = match scan U ch r with
    | .token t _ k => (lexToks U (r.drop k)).map (t :: ·)
    | .panic => none
    | o => lexToks U (r.drop o.taken) := by
  rw [lexToks_cons]
  cases scan U ch r <;> rfl

/-- Cutting off the end of a document: what comes before the cut stays, and behind it there is nothing, or something
unknown, or a single `=`, or tokens without `)` and `=`. -/
theorem lex_cut (U : CharClass) (n : Nat) : ∀ (x y : Str), x.length ≤ n → Ascii (x ++ y) → NoEscape (x ++ y) →
    ∃ k xs ys, lexToks U x = some (k ++ xs) ∧ lexToks U (x ++ y) = some (k ++ ys) ∧
      (.unknown ∈ xs ∨ xs = [.equals] ∨ (.closeParen ∉ xs ∧ .equals ∉ xs)) := by
  induction n with
  | zero =>
    intro x y hl ha he
    obtain rfl : x = [] := List.length_eq_zero_iff.1 (by omega)
    obtain ⟨ts, h⟩ := lexToks_some U y (by simpa using ha)
    exact ⟨[], [], ts, lexToks_nil U, by simpa using h, by simp⟩
  | succ n ih =>
    intro x y hl ha he
    obtain ⟨ws, hws⟩ := lexToks_some U (x ++ y) ha
    cases x with
    | nil => exact ⟨[], [], ws, lexToks_nil U, hws, by simp⟩
    | cons ch r =>
      have har : Ascii (ch :: r) := (Ascii.append.1 ha).1
      obtain ⟨us, hus⟩ := lexToks_some U (ch :: r) har
      rw [List.cons_append] at ha he hws ⊢
      have htk := scan_taken (U := U) har
      rcases scan_cut U ch r y ha he with hA | ⟨k, hB, hk⟩ | ⟨rfl, rfl⟩ | ⟨l, k, hD⟩ | ⟨h1, h2⟩
      · have hlen : (r.drop (scan U ch r).taken).length ≤ n := by simp at hl ⊢; omega
        have hdrop : (r ++ y).drop (scan U ch r).taken = r.drop (scan U ch r).taken ++ y := by
          rw [List.drop_append_of_le_length htk]
        have hsuf : r.drop (scan U ch r).taken ++ y <:+ ch :: (r ++ y) := by
          rw [← hdrop]
          exact (List.drop_suffix _ _).trans (List.suffix_cons _ _)
        obtain ⟨K, xs, ys, e1, e2, e3⟩ := ih (r.drop (scan U ch r).taken) y hlen
          (fun c hc => ha c (hsuf.subset hc)) (he.infix hsuf.isInfix)
        rw [← hdrop] at e2
        rw [lexToks_step, lexToks_step, hA]
        cases hs : scan U ch r with
        | white => rw [hs] at e1 e2; exact ⟨K, xs, ys, e1, e2, e3⟩
        | comment k => rw [hs] at e1 e2; exact ⟨K, xs, ys, e1, e2, e3⟩
        | token t l k =>
          rw [hs] at e1 e2
          refine ⟨t :: K, xs, ys, ?_, ?_, e3⟩
          · show (lexToks U (r.drop k)).map (t :: ·) = _
            rw [show lexToks U (r.drop k) = _ from e1]; rfl
          · show (lexToks U ((r ++ y).drop k)).map (t :: ·) = _
            rw [show lexToks U ((r ++ y).drop k) = _ from e2]; rfl
        | panic => rw [lexToks_step, hs] at hus; simp at hus
      · refine ⟨[], [], ws, ?_, by simpa using hws, by simp⟩
        rw [lexToks_cons, hB]
        show lexToks U (r.drop k) = _
        rw [List.drop_eq_nil_of_le hk]
        exact lexToks_nil U
      · refine ⟨[], [.equals], ws, ?_, by simpa using hws, by simp⟩
        rw [lexToks_cons]
        have hw : U.isWhite '=' = false := by
          cases h : U.isWhite '=' with
          | false => rfl
          | true =>
            rcases (isWhite_of_ascii U (by decide)).1 h with h | h
            · revert h; decide
            · revert h; decide
        simp [scan, hw, singleTok, lexToks_nil]
      · refine ⟨[], us, ws, by simpa using hus, by simpa using hws, .inl ?_⟩
        rw [lexToks_cons, hD] at hus
        obtain ⟨vs, -, rfl⟩ := Option.map_eq_some_iff.1 hus
        simp
      · refine ⟨[], us, ws, by simpa using hus, by simpa using hws, .inr (.inr ⟨fun h => ?_, fun h => ?_⟩)⟩
        · exact h1 ((lexToks_text hus h (by simp)).subset (by simp [Token.text]))
        · exact h2 ((lexToks_text hus h (by simp)).subset (by simp [Token.text]))

end Verif
