import Verif.Proofs.LegalContract
import Verif.Props.Reprint
import Verif.Props.NonAscii
import Verif.Props.RoundTrip
/-
C52: every result of the library is a legal interface, and printing it gives a document that means the same.
-/
namespace Verif

/-- At a non-ASCII character that is not whitespace the lexer either panics or yields `Unknown`. -/
theorem scan_foreign_any (U : CharClass) (c : Char) (r : Str) (h : 128 ≤ c.toNat) (hw : U.white c = false) :
    scan U c r = .panic ∨ scan U c r = .token .unknown 0 0 := by
  cases ha : U.alnum c with
  | false => exact .inr (scan_foreign U c r h hw ha)
  | true =>
    -- the same document for classes in which `c` is not alphanumeric
    have h0 := scan_foreign ⟨fun _ => false, U.numeric, U.white⟩ c r h hw rfl
    have hne : ∀ d : Char, d.toNat < 128 → c ≠ d := by rintro d hd rfl; omega
    have hwhite : U.isWhite c = false := by simp [CharClass.isWhite, isAscii, hw]; omega
    have hsingle : singleTok c = none := by
      rw [singleTok_none_iff]; intro hm; revert hm
      simp only [List.mem_cons, List.not_mem_nil, or_false]
      rintro (h | h | h | h | h | h | h | h | h | h | h | h | h | h | h | h) <;> exact hne _ (by decide) h
    have hkw : ∀ kw, kw <+: c :: r → lookupKeyword kw = none := by
      intro kw hk
      cases hl : lookupKeyword kw with
      | none => rfl
      | some t =>
        obtain ⟨d, w, e, hd, _⟩ := keyword_head _ (lookupKeyword_mem hl)
        simp only at e
        subst e
        obtain ⟨q, hq⟩ := hk
        simp at hq
        have : d.toNat < 128 := by
          rcases hd with hd | hd <;> simp [isLower, isUpper] at hd <;> omega
        exact absurd hq.1.symm (hne d this)
    have hother : scanOther (c :: r) = .token .unknown 0 0 := by
      have h1 : CharClass.isIdent ⟨fun _ => false, U.numeric, U.white⟩ c = false := by
        simp [CharClass.isIdent, CharClass.isAlnum, isAscii, hne '_' (by decide)]; omega
      have h2 : CharClass.isWhite ⟨fun _ => false, U.numeric, U.white⟩ c = false := hwhite
      have h3 : scanWord ⟨fun _ => false, U.numeric, U.white⟩ (c :: r) = scanOther (c :: r) := by
        unfold scanWord keywordSlice wordIndex
        simp [h1, hkw _ (List.prefix_refl _)]
      rw [← h3, ← h0]
      simp [scan, h2, hsingle, hne '=' (by decide), hne '-' (by decide), hne '<' (by decide),
        hne ':' (by decide), hne '_' (by decide), hne '(' (by decide)]
    have e : scan U c r = scanWord U (c :: r) := by
      simp [scan, hwhite, hsingle, hne '=' (by decide), hne '-' (by decide), hne '<' (by decide),
        hne ':' (by decide), hne '_' (by decide), hne '(' (by decide)]
    rw [e]
    unfold scanWord
    cases hk : keywordSlice U (c :: r) with
    | none => exact .inl rfl
    | some kw =>
      simp only [hkw kw (keywordSlice_prefix hk)]
      exact .inr hother

/-- No character is both whitespace and a letter or digit, as in Unicode. -/
def CharClass.Apart (U : CharClass) : Prop := ∀ c, 128 ≤ c.toNat → U.white c = true → U.alnum c = false

/-- Where a name token ends there is no further character of a word, unless an `Unknown` follows. -/
theorem name_ends {U : CharClass} (hU : U.Apart) {σ : LexState} {l : List Seg} (hs : Segs U σ l)
    (hu : ∀ t ∈ segTokens l, t.tok ≠ .unknown) {d : Char} {r : Str} (hr : σ.rest = d :: r)
    (hw : isWord d = false) : U.isIdent d = false := by
  by_cases hd : d.toNat < 128
  · rw [isIdent_of_ascii U hd, hw]
  · have hd' : 128 ≤ d.toNat := by omega
    have hne : d ≠ '_' := by rintro rfl; exact hd (by decide)
    have hid : U.isIdent d = U.alnum d := by
      simp [CharClass.isIdent, CharClass.isAlnum, isAscii, hd, hne]
    rw [hid]
    cases hwh : U.white d with
    | true => exact hU d hd' hwh
    | false =>
      exfalso
      cases hs with
      | nil h => rw [h] at hr; simp at hr
      | cons hstep hrest =>
        rcases scan_foreign_any U d r hd' hwh with hp | hp
        · cases hstep with
          | white h1 h2 => rw [hr] at h1; simp at h1; rw [← h1.1, ← h1.2, hp] at h2; simp at h2
          | comment h1 h2 => rw [hr] at h1; simp at h1; rw [← h1.1, ← h1.2, hp] at h2; simp at h2
          | token h1 h2 => rw [hr] at h1; simp at h1; rw [← h1.1, ← h1.2, hp] at h2; simp at h2
        · cases hstep with
          | white h1 h2 => rw [hr] at h1; simp at h1; rw [← h1.1, ← h1.2, hp] at h2; simp at h2
          | comment h1 h2 => rw [hr] at h1; simp at h1; rw [← h1.1, ← h1.2, hp] at h2; simp at h2
          | token h1 h2 =>
            rw [hr] at h1; simp at h1; rw [← h1.1, ← h1.2, hp] at h2
            injection h2 with h2
            exact hu _ (List.mem_cons_self) h2.symm

theorem takeWhile_of_split {p : Char → Bool} {m q s : Str} (e : m ++ q = s) (hm : ∀ c ∈ m, p c = true)
    (hq : ∀ c r, q = c :: r → p c = false) : s.takeWhile p = m := by
  subst e
  induction m with
  | nil =>
    cases q with
    | nil => rfl
    | cons c r => rw [List.nil_append, List.takeWhile_cons, hq c r rfl]; rfl
  | cons c m ih =>
    rw [List.cons_append, List.takeWhile_cons, if_pos (hm c (by simp)), ih fun c h => hm c (by simp [h])]

/-- In a document without `Unknown` tokens the name tokens are legal names. -/
theorem lexed_name {U : CharClass} (hU : U.Apart) (doc : Str) (ts : List STok)
    (h : lexDoc U doc = some ts) (hu : ∀ t ∈ ts, t.tok ≠ .unknown) (u : STok) (ht : u ∈ ts) :
    u.tok.NameOk := by
  have hwf := C09_well_formed U doc u (by rw [yielded_of_lexDoc h]; exact ht)
  obtain ⟨l, hl, rfl⟩ := lexDoc_segs.mp h
  obtain ⟨a, x, b, rfl⟩ := mem_segTokens ht
  obtain ⟨σ, hr, hseg⟩ := hl.split
  have hsub : ∀ t ∈ segTokens b, t.tok ≠ .unknown := by
    intro t ht
    refine hu t ?_
    have e : ∀ a : List Seg, segTokens b ⊆ segTokens (a ++ b) := by
      intro a
      induction a with
      | nil => simp
      | cons s a ih =>
        intro y hy
        cases s with
        | token t x => exact List.mem_cons_of_mem _ (ih hy)
        | white => exact ih hy
        | comment => exact ih hy
    have := e (a ++ [.token u x]) ht
    simpa using this
  cases hseg with
  | cons hstep hb =>
    cases hstep with
    | @token ch r tk len n hr hsc =>
      simp only at hwf ⊢
      have key : ∀ m, tk = .identifier m ∨ tk = .customIdentifier m ∨ tk = .specialIdentifier m →
          m ∉ keywords ∧ (tk = .customIdentifier m → ¬ str! "ByStr" <+: m) ∧
          (tk = .specialIdentifier m → m ≠ ['_']) := by
        intro m hs
        have hname := scan_name (m := m) hsc (by rcases hs with h | h | h <;> simp [h])
        have hinv := scanOther_inv (m := m) hname.2
        have hm : m = (ch :: r).takeWhile isWord := by
          apply word_match
          rcases hs with h | h | h
          · exact .inl (hinv.1 h)
          · exact .inr (.inl (hinv.2.1 h))
          · exact .inr (.inr (hinv.2.2.1 h))
        have hmw : ∀ c ∈ m, isWord c = true := by
          rw [hm]; intro c hc; exact List.all_eq_true.mp List.all_takeWhile c hc
        have hma : Ascii m := ascii_word hmw
        obtain ⟨m', hlex⟩ := scan_lexeme hsc
        have htx : tk.text = m := by rcases hs with h | h | h <;> simp [h, Token.text]
        obtain ⟨h3, h4, h5⟩ := hlex.text (by rcases hs with h | h | h <;> simp [h])
        rw [htx] at h3; subst h3
        have hdrop : m' ++ r.drop n = ch :: r := by
          obtain ⟨q, hq⟩ := hlex.pre
          have : r.drop n = (ch :: r).drop m'.length := by
            rw [← hma.bytes, ← h5, List.drop_succ_cons]
          rw [this, ← hq]; simp
        have hend : ∀ c q, r.drop n = c :: q → U.isIdent c = false ∧ isWord c = false := by
          intro c q e
          have hc : isWord c = false := by
            cases hcw : isWord c with
            | false => rfl
            | true =>
              have h1 : ((m' ++ [c]) ++ q).takeWhile isWord = m' ++ [c] ++ q.takeWhile isWord := by
                rw [List.takeWhile_append_of_pos]
                intro d hd
                rcases List.mem_append.mp hd with hd | hd
                · exact hmw d hd
                · simp at hd; rw [hd, hcw]
              rw [List.append_assoc, List.singleton_append, ← e, hdrop, ← hm] at h1
              have := congrArg List.length h1
              simp at this
          exact ⟨name_ends hU hb hsub (r := q) e hc, hc⟩
        have hrun : (ch :: r).takeWhile U.isIdent = m' :=
          takeWhile_of_split hdrop (fun c hc => by rw [isIdent_of_ascii U (hma c hc), hmw c hc])
            fun c q e => (hend c q e).1
        refine ⟨?_, ?_, ?_⟩
        · intro hmem
          obtain ⟨⟨kw, kt⟩, hk, rfl⟩ := List.mem_map.mp (mem_keywords.mp hmem)
          have hsw := scanWord_run U (ch :: r) (by
            rw [hrun]; exact ascii_word (keywordTable_word _ hk))
          rw [hrun, lookupKeyword_table _ hk, hname.1] at hsw
          simp only at hsw
          injection hsw with h1
          have hkk : ∀ p ∈ keywordTable, (match p.2 with
              | .identifier _ | .customIdentifier _ | .specialIdentifier _ => false
              | _ => true) = true := by decide
          have := hkk _ hk
          rw [h1] at hs
          rcases hs with h | h | h <;> simp [h] at this
        · intro e
          rintro ⟨q, hq⟩
          have hz : str! "ByStr" ++ (q ++ r.drop n) = ch :: r := by
            rw [← List.append_assoc, hq, hdrop]
          have h2 := hname.2
          rw [← hz, e] at h2
          generalize q ++ r.drop n = z at h2
          simp only [List.cons_append, List.nil_append, scanOther, matchByStrSize, startsByStr] at h2
          cases hd : z.takeWhile isDigit with
          | nil => rw [hd] at h2; simp at h2
          | cons d ds => rw [hd] at h2; simp [regexToken] at h2
        · rintro e rfl
          simp only [List.singleton_append, List.cons.injEq] at hdrop
          obtain ⟨rfl, hdr⟩ := hdrop
          rw [← hdr] at hsc
          have hx : ((r.drop n).head?.map U.isIdent).getD false = false := by
            cases hq : r.drop n with
            | nil => rfl
            | cons d q => simp [(hend d q hq).1]
          have hw : U.isWhite '_' = false := by
            cases hw : U.isWhite '_' with
            | false => rfl
            | true => unfold scan at hsc; rw [if_pos hw] at hsc; simp at hsc
          unfold scan at hsc
          rw [hw, hx] at hsc
          simp [e] at hsc
      cases tk <;> try trivial
      · exact ⟨hwf, (key _ (.inl rfl)).1⟩
      · exact ⟨hwf, (key _ (.inr (.inl rfl))).1, (key _ (.inr (.inl rfl))).2.1 rfl⟩
      · exact ⟨hwf, (key _ (.inr (.inr rfl))).2.2 rfl⟩

/-- The interface of an accepted document is legal. -/
theorem accepted_legal (env : Env) (hU : env.chars.Apart) (doc : Str) (c : Contract)
    (h : fromStr env doc = .ok c) : c.Writable ∧ c.Named := by
  obtain ⟨toks, p, hl, hp, he⟩ := fromStr_ok_iff.mp h
  have hu : ∀ t ∈ toks, t.tok ≠ .unknown := by
    intro t ht e
    obtain ⟨m, hm⟩ := C14_unknown_rejected env doc t (by rw [yielded_of_lexDoc hl]; exact ht) (.inl e)
    rw [h] at hm; simp at hm
  have hd := ((C15_C16_exact toks p).mp hp).legal env.dbg fun t ht => lexed_name hU doc toks hl hu t ht
  exact ⟨contract_writable env.dbg hd he, contract_named env.dbg hd he⟩

/-- C52: whatever document the library accepts, the names and the types of the interface it returns are legal
Scilla names and types. -/
theorem C52_legal (env : Env) (hU : env.chars.Apart) (doc : Str) (c : Contract)
    (h : fromStr env doc = .ok c) : c.Writable ∧ c.Named := accepted_legal env hU doc c h

/-- C52: printing the result of any successful parse gives a document with the same interface. -/
theorem C52_reprint (env : Env) (hU : env.chars.Apart) (doc : Str) (c : Contract)
    (h : fromStr env doc = .ok c) : fromStr env (spaced c.toks) = .ok c :=
  C40_print env c (accepted_legal env hU doc c h).1 (accepted_legal env hU doc c h).2

/-- C52: the interfaces the library returns are exactly the legal ones. -/
theorem C52_exact (env : Env) (hU : env.chars.Apart) (c : Contract) :
    (∃ doc, fromStr env doc = .ok c) ↔ c.Writable ∧ c.Named :=
  ⟨fun ⟨doc, h⟩ => accepted_legal env hU doc c h, fun h => ⟨_, C40_print env c h.1 h.2⟩⟩

/-- C52: the names of contract parameters, fields and transition parameters start with a lower case letter, consist
of ASCII letters, digits and underscores, and are not keywords; the name of a user-defined type is not the name of
a type the library knows. -/
theorem C52_names (env : Env) (hU : env.chars.Apart) (doc : Str) (c : Contract)
    (h : fromStr env doc = .ok c) (x : Str) (ty : Ty)
    (hf : ⟨x, ty⟩ ∈ c.initParams ∨ ⟨x, ty⟩ ∈ c.fields ∨ ∃ t ∈ c.transitions, ⟨x, ty⟩ ∈ t.params) :
    (∃ a w, x = a :: w ∧ 'a' ≤ a ∧ a ≤ 'z' ∧ ∀ b ∈ w, NameChar b) ∧ x ∉ keywords ∧
      (∀ s, ty = .other s → s ∉ takenNames) ∧ ty ≠ .other [] := by
  have hw := (accepted_legal env hU doc c h).1
  have key : Printable (.identifier x) ∧ ty.Writable := by
    have this : fieldsWritable [⟨x, ty⟩] → Printable (.identifier x) ∧ ty.Writable := fun h => ⟨h.1, h.2.1⟩
    rcases hf with hf | hf | ⟨t, ht, hf⟩
    · exact this (fieldsWritable_mem hw.params _ hf)
    · exact this (fieldsWritable_mem hw.fields _ hf)
    · exact this (fieldsWritable_mem (hw.transitions t ht) _ hf)
  obtain ⟨⟨h1, h2⟩, h3⟩ := key
  refine ⟨h1, h2, ?_, ?_⟩
  · intro s e
    rw [e] at h3
    rcases h3 with h3 | h3
    · exact h3.2
    · intro hm
      have hb : ∀ s ∈ takenNames, digitsValue (s.drop 5) < 2 ^ 64 := by decide
      exact absurd (hb s hm) (by omega)
  · intro e
    rw [e] at h3
    rcases h3 with h3 | h3
    · exact absurd h3.1.1 (by simp [WellFormed])
    · exact absurd h3.1 (by simp [Printable, WellFormed])

/-! Witnesses: the classes of `foreignU` are apart and its document, with non-ASCII characters, is accepted; the
interface with maps, pairs and address types is in the image. -/

theorem foreign_apart : foreignU.Apart := by
  intro c _ h
  have : c = '\u00A0' := by simpa [foreignU] using h
  subst this; decide

theorem C52_foreign : ∃ d : Str, ¬ Ascii foreignDoc ∧
    fromStr ⟨foreignU, fun _ => [], fun _ => []⟩ foreignDoc =
      fromStr ⟨foreignU, fun _ => [], fun _ => []⟩ d ∧
    d = str! "scilla_version 0 contract C ( ) field f : String = x " :=
  ⟨_, fun h => absurd (h '\u00A0' (by decide)) (by decide),
    C48_foreign_accepted.trans (C52_reprint ⟨foreignU, fun _ => [], fun _ => []⟩ foreign_apart _ _
      C48_foreign_accepted).symm, by decide⟩

example (env : Env) (hU : env.chars.Apart) : ∃ doc, fromStr env doc = .ok tourContract :=
  (C52_exact env hU _).mpr ⟨tour_writable, tour_named⟩

/-- A type called like a built-in one is not in the image. -/
example (env : Env) (hU : env.chars.Apart) (doc : Str) :
    fromStr env doc ≠ .ok ⟨str! "C", [], [⟨str! "f", .other (str! "Uint32")⟩], []⟩ := by
  intro h
  exact (C52_names env hU doc _ h (str! "f") _ (.inr (.inl (List.mem_singleton.mpr rfl)))).2.2.1 _ rfl
    (by decide)

end Verif
