import Verif.Props.Lexer2
import Verif.Props.Emitter1
import Verif.Proofs.LexTail
/-
Documents with non-ASCII characters: C06 in general, C48.
-/
namespace Verif

theorem scan_unknown_any {U : CharClass} {ch : Char} {r : Str} {len n : Nat}
    (h : scan U ch r = .token .unknown len n) : ¬ NameChar ch ∧ (ch ∈ punctuation → ch = '-') := by
  have hcase := scan_token_cases h
  rcases hcase with hc | hc | ⟨hs, hw⟩
  · simp at hc
  · exact absurd rfl (singleTok_text hc).2.1
  · have ho : scanOther (ch :: r) = .token .unknown len n := by
      unfold scanWord at hw
      split at hw
      · simp at hw
      · split at hw
        · rename_i ht
          injection hw with h1
          exact absurd h1 (keywordTable_text _ (lookupKeyword_mem ht)).2.1
        · exact hw
    obtain ⟨h1, h2, h3, h4, h5⟩ := scanOther_unknown ho
    refine ⟨?_, ?_⟩
    · intro hn
      have := isWord_iff.mpr hn
      simp [isWord, h2, h3, h4, h5] at this
    · rw [singleTok_none_iff] at hs
      intro hm
      simp [punctuation] at hm
      simp at hs
      rcases hm with h | h | h | h | h | h | h | h | h | h | h | h | h | h | h | h | h | h <;>
        first | exact h | exact absurd h h5 | (exfalso; simp [h] at hs)

/-- C06 for arbitrary documents: the text is exactly the concatenation of token texts, whitespace, comments,
one character per `Unknown`, and the characters lost after string literals, which are exactly as many as the
literal has more bytes than characters. -/
theorem C06_cover_any (U : CharClass) (doc : Str) (ts : List STok)
    (h : lexDoc U doc = some ts) : CoversAny U doc (ts.map (·.tok)) := by
  have h' : lexToks U doc = some (ts.map (·.tok)) := by simp [lexToks, h]
  clear h
  generalize ts.map (·.tok) = tks at h'
  clear ts
  generalize hn : doc.length = n
  induction n using Nat.strongRecOn generalizing doc tks with
  | _ n ih =>
    cases doc with
    | nil => rw [lexToks_nil] at h'; simp at h'; subst h'; exact .nil
    | cons ch r =>
      rw [lexToks_cons] at h'
      have hlen : ∀ k, (r.drop k).length < n := by
        intro k; simp at hn; simp; omega
      cases hs : scan U ch r with
      | white =>
        rw [hs] at h'
        refine .white ch r tks ?_ (ih r.length (by simp at hn; omega) r tks h' rfl)
        have hw := scan_white_inv hs
        by_cases hch : ch.toNat < 128
        · exact .inl ((isWhite_of_ascii U hch).mp hw)
        · refine .inr ⟨by omega, ?_⟩
          simpa [CharClass.isWhite, isAscii, hch] using hw
      | comment k =>
        rw [hs] at h'
        obtain ⟨r', rfl, rfl, rfl⟩ := scan_comment_inv hs
        simp only at h'
        rw [Nat.add_comm, List.drop_succ_cons] at h'
        rcases comment_cases r' with ⟨body, q, rfl, hb⟩ | hb
        · rw [commentLen_closed q hb, show body ++ '*' :: ')' :: q = (body ++ ['*', ')']) ++ q by simp,
            List.drop_left' (by simp)] at h'
          have := ih q.length (by simp at hn; omega) q tks h' rfl
          have := CoversAny.closed body q tks hb this
          simpa using this
        · rw [commentLen_open hb, List.drop_length, lexToks_nil] at h'
          simp at h'; subst h'
          exact CoversAny.unclosed r' hb
      | panic => rw [hs] at h'; simp at h'
      | token t len k =>
        rw [hs] at h'
        simp only [Option.map_eq_some_iff] at h'
        obtain ⟨tks', h2, rfl⟩ := h'
        have hcov := ih (r.drop k).length (hlen k) (r.drop k) tks' h2 rfl
        obtain ⟨m, hm⟩ := scan_lexeme hs
        by_cases hu : t = .unknown
        · obtain ⟨_, rfl⟩ := hm.unknown hu
          subst hu
          obtain ⟨h3, h4⟩ := scan_unknown_any hs
          exact .unknown ch r tks' h3 h4 (by simpa using hcov)
        · obtain ⟨h3, h4, h5⟩ := hm.text hu
          have h7 : r.drop k = (ch :: r).drop (bytes m) := by
            rw [← h5, List.drop_succ_cons]
          obtain ⟨rest, hrest⟩ := hm.pre
          have hle := length_le_bytes m
          have h8 : r.drop k = rest.drop (bytes m - m.length) := by
            rw [h7, ← hrest, List.drop_append, List.drop_eq_nil_of_le hle, List.nil_append]
          by_cases hstr : ∃ s, t = .stringLiteral s
          · obtain ⟨s, rfl⟩ := hstr
            have hms : m = s := h3
            subst hms
            rw [← hrest, ← List.take_append_drop (bytes m - m.length) rest, ← h8]
            refine .string m _ _ tks' ?_ hcov
            rw [List.length_take]
            by_cases hl : bytes m - m.length ≤ rest.length
            · left; omega
            · right
              refine ⟨?_, by omega⟩
              rw [h8]; exact List.drop_eq_nil_of_le (by omega)
          · have hns : ∀ s, t ≠ .stringLiteral s := fun s e => hstr ⟨s, e⟩
            have ha : Ascii t.text := fun c hc => (wf_text_plain (scan_wf hs) hns c hc).2
            have hmb : bytes m = m.length := by rw [h3]; exact ha.bytes
            rw [hmb, Nat.sub_self, List.drop_zero] at h8
            rw [← hrest, h3, ← h8]
            exact .token t _ tks' hu hns ha hcov

/-- C48: an accepted document has no non-ASCII characters outside whitespace, comments, string literals and the
characters lost after string literals. -/
theorem C48_cover (env : Env) (doc : Str) (c : Contract) (h : fromStr env doc = .ok c) :
    ∃ ts, CoversAny env.chars doc ts ∧ .unknown ∉ ts ∧
      ∀ t ∈ ts, (∀ m, t ≠ .stringLiteral m) → Ascii t.text := by
  obtain ⟨toks, p, hl, hp, he⟩ := fromStr_ok_iff.mp h
  refine ⟨_, C06_cover_any _ _ _ hl, ?_, ?_⟩
  · intro hu
    obtain ⟨t, ht, e⟩ := List.mem_map.mp hu
    obtain ⟨m, hm⟩ := C14_unknown_rejected env doc t (by rw [yielded_of_lexDoc hl]; exact ht) (.inl e)
    rw [h] at hm; simp at hm
  · intro t ht hs d hd
    obtain ⟨u, hu, rfl⟩ := List.mem_map.mp ht
    exact (wf_text_plain (C09_well_formed env.chars doc u (by rw [yielded_of_lexDoc hl]; exact hu)) hs d hd).2

theorem CoversAny.no_foreign {U : CharClass} {doc : Str} {ts : List Token} (h : CoversAny U doc ts)
    (hu : .unknown ∉ ts) (hc : ¬ str! "(*" <:+: doc) (hq : ∀ m, .stringLiteral m ∉ ts) :
    ∀ d ∈ doc, d.toNat < 128 ∨ U.white d = true := by
  have sub : ∀ {a b : Str}, ¬ str! "(*" <:+: a ++ b → ¬ str! "(*" <:+: b := fun hn hi =>
    hn (hi.trans (List.suffix_append _ _).isInfix)
  induction h with
  | nil => simp
  | white c s ts hw _ ih =>
    intro d hd
    rcases List.mem_cons.mp hd with rfl | hd
    · rcases hw with hw | hw
      · left
        rcases hw with rfl | hw
        · decide
        · omega
      · exact .inr hw.2
    · exact ih hu (sub (a := [c]) hc) hq d hd
  | closed body s ts _ _ _ => exact absurd (List.prefix_append _ _).isInfix hc
  | unclosed body _ => exact absurd (List.prefix_append _ _).isInfix hc
  | unknown => simp at hu
  | token t s ts _ _ ha _ ih =>
    intro d hd
    simp only [List.mem_cons, not_or] at hu
    rcases List.mem_append.mp hd with hd | hd
    · exact .inl (ha d hd)
    · exact ih hu.2 (sub hc) (fun m hm => hq m (List.mem_cons_of_mem _ hm)) d hd
  | string m => exact absurd List.mem_cons_self (hq m)

theorem CoversAny.no_string {U : CharClass} {doc : Str} {ts : List Token} (h : CoversAny U doc ts)
    (hw : ∀ t ∈ ts, WellFormed t) (hq : '"' ∉ doc) : ∀ m, .stringLiteral m ∉ ts := by
  induction h with
  | nil => simp
  | white c s ts _ _ ih => exact ih hw fun h => hq (by simp [h])
  | closed body s ts _ _ ih => exact ih hw fun h => hq (by simp [h])
  | unclosed => simp
  | unknown c s ts _ _ _ ih =>
    intro m hm
    simp only [List.mem_cons, reduceCtorEq, false_or] at hm
    exact ih (fun t ht => hw t (List.mem_cons_of_mem _ ht)) (fun h => hq (by simp [h])) m hm
  | token t s ts _ hns _ _ ih =>
    intro m hm
    rcases List.mem_cons.mp hm with e | hm
    · exact hns m e.symm
    · exact ih (fun t ht => hw t (List.mem_cons_of_mem _ ht)) (fun h => hq (by simp [h])) m hm
  | string m lost s ts _ _ _ =>
    obtain ⟨body, rfl, _⟩ := hw _ List.mem_cons_self
    simp at hq

/-- C48: an accepted document without comments and quotes consists of ASCII characters and whitespace: no
look-alike letters in names, no invisible characters. -/
theorem C48_no_foreign (env : Env) (doc : Str) (c : Contract) (h : fromStr env doc = .ok c)
    (hc : ¬ str! "(*" <:+: doc) (hq : '"' ∉ doc) :
    ∀ d ∈ doc, d.toNat < 128 ∨ env.chars.white d = true := by
  obtain ⟨toks, p, hl, hp, he⟩ := fromStr_ok_iff.mp h
  have hcov := C06_cover_any _ _ _ hl
  refine hcov.no_foreign ?_ hc (hcov.no_string ?_ hq)
  · intro hu
    obtain ⟨t, ht, e⟩ := List.mem_map.mp hu
    obtain ⟨m, hm⟩ := C14_unknown_rejected env doc t (by rw [yielded_of_lexDoc hl]; exact ht) (.inl e)
    rw [h] at hm; simp at hm
  · intro t ht
    obtain ⟨u, hu, rfl⟩ := List.mem_map.mp ht
    exact C09_well_formed env.chars doc u (by rw [yielded_of_lexDoc hl]; exact hu)

theorem scan_foreign (U : CharClass) (c : Char) (r : Str) (h : 128 ≤ c.toNat) (hw : U.white c = false)
    (ha : U.alnum c = false) : scan U c r = .token .unknown 0 0 := by
  have hne : ∀ d : Char, d.toNat < 128 → c ≠ d := by rintro d hd rfl; omega
  have hwhite : U.isWhite c = false := by simp [CharClass.isWhite, isAscii, hw]; omega
  have hid : U.isIdent c = false := by
    simp [CharClass.isIdent, CharClass.isAlnum, isAscii, ha, hne '_' (by decide)]; omega
  have hsingle : singleTok c = none := by
    rw [singleTok_none_iff]; intro hm; revert hm
    simp only [List.mem_cons, List.not_mem_nil, or_false]
    rintro (h | h | h | h | h | h | h | h | h | h | h | h | h | h | h | h) <;> exact hne _ (by decide) h
  have hkw : lookupKeyword (c :: r) = none := by
    cases hl : lookupKeyword (c :: r) with
    | none => rfl
    | some t =>
      obtain ⟨d, w, e, hd, _⟩ := keyword_head _ (lookupKeyword_mem hl)
      simp at e
      have : d.toNat < 128 := by
        rcases hd with hd | hd <;> simp [isLower, isUpper] at hd <;> omega
      exact absurd e.1 (hne d this)
  have hword : scanWord U (c :: r) = scanOther (c :: r) := by
    unfold scanWord keywordSlice wordIndex
    simp [hid, hkw]
  have hlow : isLower c = false := by simp [isLower]; omega
  have hup : isUpper c = false := by simp [isUpper]; omega
  have hdig : isDigit c = false := by simp [isDigit]; omega
  have hother : scanOther (c :: r) = .token .unknown 0 0 := by
    have h1 : matchByStrSize (c :: r) = none := by
      unfold matchByStrSize; split
      · rename_i e; simp at e; exact absurd e.1 (hne 'B' (by decide))
      · rfl
    have h2 : startsByStr (c :: r) = false := by
      unfold startsByStr; split
      · rename_i e; simp at e; exact absurd e.1 (hne 'B' (by decide))
      · rfl
    have h3 : matchHex (c :: r) = none := by
      unfold matchHex; split
      · rename_i e; simp at e; exact absurd e.1 (hne '0' (by decide))
      · rfl
    have h4 : matchString (c :: r) = none := by
      unfold matchString; split
      · rename_i e; simp at e; exact absurd e.1 (hne '"' (by decide))
      · rfl
    have h5 : matchTemplateId (c :: r) = none := by
      unfold matchTemplateId; split
      · rename_i e; simp at e; exact absurd e.1 (hne '\'' (by decide))
      · rfl
    have h6 : matchSpecialId (c :: r) = none := by
      unfold matchSpecialId; split
      · rename_i e; simp at e; exact absurd e.1 (hne '_' (by decide))
      · rfl
    have h7 : matchInteger (c :: r) = none := by
      simp [matchInteger, hne '+' (by decide), hne '-' (by decide), hdig]
    simp [scanOther, h1, h2, h3, h4, h5, h6, h7, matchRegularId, matchCustomId, hlow, hup]
  simp [scan, hwhite, hsingle, hword, hother, hne '=' (by decide), hne '-' (by decide), hne '<' (by decide),
    hne ':' (by decide), hne '_' (by decide), hne '(' (by decide)]

/-- C48: a non-ASCII character that is neither whitespace nor a letter or digit (a byte order mark, a typographic
quote, a zero-width space, …) at a token boundary makes `from_str` a parse error, whatever follows. -/
theorem C48_foreign_error (env : Env) (pre rest : Str) (ks : List Token) (c : Char)
    (hb : Boundary env.chars pre ks (c :: rest)) (h : 128 ≤ c.toNat) (hw : env.chars.white c = false)
    (ha : env.chars.alnum c = false) :
    ∃ msg, fromStr env (pre ++ c :: rest) = .err (.parseError msg) := by
  have h1 := hb.reached.toksUpTo
  rw [toksUpTo_cons, scan_foreign _ c rest h hw ha] at h1
  have : .unknown ∈ toksUpTo env.chars (pre ++ c :: rest) := by rw [h1]; simp
  obtain ⟨t, ht, e⟩ := List.mem_map.mp this
  exact C14_unknown_rejected env _ t ht (.inl e)

/-- A file that starts with a byte order mark is not accepted. -/
theorem C48_byte_order_mark (env : Env) (doc : Str) (hw : env.chars.white '\uFEFF' = false)
    (ha : env.chars.alnum '\uFEFF' = false) :
    ∃ msg, fromStr env ('\uFEFF' :: doc) = .err (.parseError msg) :=
  C48_foreign_error env [] doc [] _ ⟨_, .nil _, rfl⟩ (by decide) hw ha

/-- An accepted document with non-ASCII whitespace, a non-ASCII comment and a non-ASCII string literal: the `?` after
the literal is one of the characters that are lost. -/
def foreignU : CharClass := ⟨fun c => c == 'é', fun _ => false, fun c => c == '\u00A0'⟩
def foreignDoc : Str := str! "scilla_version\u00A00 (* é *) contract C () field f : String = \"é\"?"

theorem C48_foreign_accepted : fromStr ⟨foreignU, fun _ => [], fun _ => []⟩ foreignDoc =
    .ok ⟨str! "C", [], [⟨str! "f", .string⟩], []⟩ := by
  have h1 : (lexDoc foreignU foreignDoc).isSome = true := by decide +kernel
  obtain ⟨toks, h1⟩ := Option.isSome_iff_exists.mp h1
  have h2 : ((lexDoc foreignU foreignDoc).bind parseProgram).isSome = true := by decide +kernel
  rw [h1] at h2
  obtain ⟨p, h2⟩ := Option.isSome_iff_exists.mp h2
  have h3 : ((lexDoc foreignU foreignDoc).bind parseProgram).map (emitProgram fun _ => []) =
    some (.ok ⟨str! "C", [], [⟨str! "f", .string⟩], []⟩) := by decide +kernel
  rw [h1] at h3
  simp only [Option.bind_some] at h2 h3
  rw [h2] at h3
  exact fromStr_ok_iff.mpr ⟨toks, p, h1, h2, by simpa using h3⟩

/-- Without comments and quotes: `C48_no_foreign` on a document with a non-ASCII blank. -/
example : (∃ c ∈ (str! "scilla_version\u00A00 contract C ()" : Str), ¬ c.toNat < 128) ∧
    ¬ str! "(*" <:+: (str! "scilla_version\u00A00 contract C ()" : Str) ∧
    '"' ∉ (str! "scilla_version\u00A00 contract C ()" : Str) ∧
    ((lexDoc foreignU (str! "scilla_version\u00A00 contract C ()")).bind parseProgram).isSome = true := by
  refine ⟨by decide, by decide, by decide, by decide +kernel⟩

end Verif
