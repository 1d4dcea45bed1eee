import Verif.Proofs.LexCrlf
import Verif.Props.Legal
import Verif.Props.Rename
import Verif.Props.Comments
/-
C55: line ends.  `crlf doc` is the document with a carriage return before every newline.
-/
namespace Verif

/-- C55: with Windows line ends the lexer yields the same tokens on the same lines; only the texts of string
literals that span several lines have the other line ends.  It panics on both documents or on neither. -/
theorem C55_tokens (U : CharClass) (doc : Str) (ha : AsciiStrings (yielded U doc)) :
    (yielded U (crlf doc)).map (fun t => (t.tok, t.start.line, t.stop.line)) =
        (yielded U doc).map (fun t => (t.tok.ren crlf, t.start.line, t.stop.line)) ∧
      (lexDoc U (crlf doc) = none ↔ lexDoc U doc = none) :=
  tokens_crlf U (.init doc) (.init (crlf doc)) rfl rfl ha

/-- ... for instance in every document of ASCII characters -/
theorem asciiStrings_of_ascii (U : CharClass) (doc : Str) (h : Ascii doc) : AsciiStrings (yielded U doc) := by
  intro t ht s hs
  obtain ⟨pre, post, h1, _, _⟩ := C05_text_is_slice U doc t ht (by rw [hs]; simp)
  intro c hc
  apply h c
  rw [h1, hs]
  simp [Token.text, hc]

/-- line ends, but names that start with `ByStr` stay (they contain no newline when they come from a document) -/
def crlfName (s : Str) : Str := if str! "ByStr" <+: s then s else crlf s

theorem fixed_no_newline : ∀ s ∈ fixedNames, '\n' ∉ s ∧ '\r' ∉ s := by decide

theorem crlf_mem {s : Str} (h : '\n' ∈ s) : '\n' ∈ crlf s := by
  simp only [crlf, List.mem_flatMap]
  exact ⟨'\n', h, by simp⟩

theorem crlfName_renaming : Renaming crlfName := by
  constructor
  · intro s hs
    unfold crlfName
    split
    · rfl
    · rename_i hb
      rcases hs with hs | hs
      · exact crlf_eq_self (fixed_no_newline s hs).1
      · exact absurd hs hb
  · intro s hs
    unfold crlfName at hs
    split at hs
    · exact hs
    · rename_i hb
      rcases hs with hs | hs
      · left
        by_cases hn : '\n' ∈ s
        · exact absurd (crlf_mem hn) (fixed_no_newline _ hs).1
        · rwa [crlf_eq_self hn] at hs
      · exact absurd ((prefix_crlf (by decide) (by decide) s).mp hs) hb

theorem crlfName_ren {t : Token} (h : WellFormed t) : t.ren crlfName = t.ren crlf := by
  by_cases hs : ∃ m, t = .stringLiteral m
  · obtain ⟨m, rfl⟩ := hs
    obtain ⟨b, rfl, _⟩ := h
    simp only [Token.ren, crlfName]
    rw [if_neg]
    simp [List.cons_prefix_cons]
  · have hns : ∀ m, t ≠ .stringLiteral m := fun m e => hs ⟨m, e⟩
    have hnl : '\n' ∉ t.text := fun hm => (wf_text_plain h hns _ hm).1 rfl
    have key : ∀ s : Str, '\n' ∉ s → crlfName s = crlf s := by
      intro s hs
      unfold crlfName; rw [crlf_eq_self hs]; split <;> rfl
    cases t <;> first
      | rfl
      | exact absurd rfl (hns _)
      | (simp only [Token.ren]; rw [key]; exact hnl)

theorem printable_no_newline {t : Token} (h : Printable t) (hns : ∀ m, t ≠ .stringLiteral m) : '\n' ∉ t.text := by
  have hw : WellFormed t := by
    cases t <;> first | exact absurd rfl (hns _) | exact h.1 | exact h | exact trivial
  exact fun hm => (wf_text_plain hw hns _ hm).1 rfl

mutual
theorem Ty.names_crlf : ∀ (t : Ty), t.Writable → ∀ s ∈ t.names, '\n' ∉ s
  | .map k v, h, s, hs => by
    simp only [Ty.names, List.mem_append] at hs
    rcases hs with hs | hs
    · exact Ty.names_crlf k h.2.1 s hs
    · exact Ty.names_crlf v h.2.2 s hs
  | .option t, h, s, hs => Ty.names_crlf t h s hs
  | .list t, h, s, hs => Ty.names_crlf t h s hs
  | .pair a b, h, s, hs => by
    simp only [Ty.names, List.mem_append] at hs
    rcases hs with hs | hs
    · exact Ty.names_crlf a h.1 s hs
    · exact Ty.names_crlf b h.2 s hs
  | .byStr20With tag fs, h, s, hs => by
    simp only [Ty.names, List.mem_cons] at hs
    rcases hs with rfl | hs
    · rcases h.1 with rfl | ⟨_, rfl | rfl | h⟩
      · decide
      · decide
      · decide
      · exact printable_no_newline h (by simp)
    · exact fieldsNames_crlf fs h.2 s hs
  | .other n, h, s, hs => by
    simp only [Ty.names, List.mem_cons, List.not_mem_nil, or_false] at hs
    subst hs
    rcases h with h | h
    · exact printable_no_newline h.1 (by simp)
    · exact printable_no_newline h.1 (by simp)
  | .int32, _, _, hs => by simp [Ty.names] at hs
  | .int64, _, _, hs => by simp [Ty.names] at hs
  | .int128, _, _, hs => by simp [Ty.names] at hs
  | .int256, _, _, hs => by simp [Ty.names] at hs
  | .uint32, _, _, hs => by simp [Ty.names] at hs
  | .uint64, _, _, hs => by simp [Ty.names] at hs
  | .uint128, _, _, hs => by simp [Ty.names] at hs
  | .uint256, _, _, hs => by simp [Ty.names] at hs
  | .string, _, _, hs => by simp [Ty.names] at hs
  | .bNum, _, _, hs => by simp [Ty.names] at hs
  | .byStr, _, _, hs => by simp [Ty.names] at hs
  | .byStrX n, _, _, hs => by simp [Ty.names] at hs
  | .byStr20, _, _, hs => by simp [Ty.names] at hs
  | .bool, _, _, hs => by simp [Ty.names] at hs
theorem fieldsNames_crlf : ∀ (fs : List Field), fieldsWritable fs → ∀ s ∈ fieldsNames fs, '\n' ∉ s
  | [], _, s, hs => by simp [fieldsNames] at hs
  | ⟨x, t⟩ :: fs, h, s, hs => by
    simp only [fieldsNames, List.mem_cons, List.mem_append] at hs
    rcases hs with rfl | hs | hs
    · exact printable_no_newline h.1 (by simp)
    · exact Ty.names_crlf t h.2.1 s hs
    · exact fieldsNames_crlf fs h.2.2 s hs
end

mutual
theorem Ty.ren_fixed {f : Str → Str} : ∀ t : Ty, (∀ s ∈ t.names, f s = s) → t.ren f = t
  | .map k v, h => by
    rw [Ty.ren, Ty.ren_fixed k fun s hs => h s (by simp [Ty.names, hs]),
      Ty.ren_fixed v fun s hs => h s (by simp [Ty.names, hs])]
  | .option t, h => by rw [Ty.ren, Ty.ren_fixed t h]
  | .pair a b, h => by
    rw [Ty.ren, Ty.ren_fixed a fun s hs => h s (by simp [Ty.names, hs]),
      Ty.ren_fixed b fun s hs => h s (by simp [Ty.names, hs])]
  | .list t, h => by rw [Ty.ren, Ty.ren_fixed t h]
  | .byStr20With tag fs, h => by
    rw [Ty.ren, renFields_fixed fs fun s hs => h s (by simp [Ty.names, hs]), h tag (by simp [Ty.names])]
  | .other s, h => by rw [Ty.ren, h s (by simp [Ty.names])]
  | .int32, _ => rfl
  | .int64, _ => rfl
  | .int128, _ => rfl
  | .int256, _ => rfl
  | .uint32, _ => rfl
  | .uint64, _ => rfl
  | .uint128, _ => rfl
  | .uint256, _ => rfl
  | .string, _ => rfl
  | .bNum, _ => rfl
  | .byStr, _ => rfl
  | .byStrX n, _ => rfl
  | .byStr20, _ => rfl
  | .bool, _ => rfl
theorem renFields_fixed {f : Str → Str} : ∀ fs : List Field, (∀ s ∈ fieldsNames fs, f s = s) →
    renFields f fs = fs
  | [], _ => rfl
  | ⟨x, t⟩ :: fs, h => by
    rw [renFields, Ty.ren_fixed t fun s hs => h s (by simp [fieldsNames, hs]),
      renFields_fixed fs fun s hs => h s (by simp [fieldsNames, hs]), h x (by simp [fieldsNames])]
end

theorem Contract.ren_fixed {f : Str → Str} (c : Contract) (h : ∀ s ∈ c.names, f s = s) : c.ren f = c := by
  obtain ⟨n, ps, fs, ts⟩ := c
  have h1 := h n (by simp [Contract.names])
  have h2 : renFields f ps = ps := renFields_fixed ps fun s hs => h s (by simp [Contract.names, hs])
  have h3 : renFields f fs = fs := renFields_fixed fs fun s hs => h s (by simp [Contract.names, hs])
  have h4 : ∀ t ∈ ts, t.ren f = t := by
    intro t ht
    have ha : f t.name = t.name := h t.name (by
      simp only [Contract.names, List.mem_cons, List.mem_append, List.mem_flatMap]
      exact .inr (.inr ⟨t, ht, .inl rfl⟩))
    have hb : renFields f t.params = t.params := renFields_fixed t.params fun s hs => h s (by
      simp only [Contract.names, List.mem_cons, List.mem_append, List.mem_flatMap]
      exact .inr (.inr ⟨t, ht, .inr hs⟩))
    rw [renFields_map] at hb
    cases t
    simp only [Transition.ren] at *
    rw [ha, hb]
  rw [renFields_map] at h2 h3
  simp only [Contract.ren, h1, h2, h3]
  congr 1
  exact (List.map_congr_left h4).trans (List.map_id _)

theorem contractTok_text (s : Str) : (contractTok s).text = s := by
  unfold contractTok
  split
  · rename_i h; rw [h]; rfl
  · split <;> rfl

theorem contractTok_name (s m : Str) : contractTok s ≠ .stringLiteral m := by
  unfold contractTok
  split
  · simp
  · split <;> simp

theorem transitionTok_text (s : Str) : (transitionTok s).text = s := by
  unfold transitionTok
  split
  · split
    · rfl
    · exact contractTok_text _
  · exact contractTok_text _

theorem transitionTok_name (s m : Str) : transitionTok s ≠ .stringLiteral m := by
  unfold transitionTok
  split
  · split
    · simp
    · exact contractTok_name _ _
  · exact contractTok_name _ _

theorem legal_no_newline {c : Contract} (h1 : c.Writable) (h2 : c.Named) : ∀ s ∈ c.names, '\n' ∉ s := by
  intro s hs
  simp only [Contract.names, List.mem_cons, List.mem_append, List.mem_flatMap] at hs
  rcases hs with rfl | (hs | hs) | ⟨t, ht, rfl | hs⟩
  · have := printable_no_newline h2.name (contractTok_name _)
    rwa [contractTok_text] at this
  · exact fieldsNames_crlf _ h1.params s hs
  · exact fieldsNames_crlf _ h1.fields s hs
  · have := printable_no_newline (h2.transitions t ht) (transitionTok_name _)
    rwa [transitionTok_text] at this
  · exact fieldsNames_crlf _ (h1.transitions t ht) s hs

theorem Viable.kinds {a b : List STok}
    (h : a.map (fun t => t.tok.ren fun _ => []) = b.map (fun t => t.tok.ren fun _ => [])) : Viable a ↔ Viable b := by
  constructor
  · rintro ⟨rest, hr⟩
    exact ⟨rest, by rw [← C49_kinds (a ++ rest) (b ++ rest) (by simp [h])]; exact hr⟩
  · rintro ⟨rest, hr⟩
    exact ⟨rest, by rw [C49_kinds (a ++ rest) (b ++ rest) (by simp [h])]; exact hr⟩

theorem Token.ren_ren (f g : Str → Str) (t : Token) : (t.ren f).ren g = t.ren (fun s => g (f s)) := by
  cases t <;> rfl

/-- C55: saving a document with Windows line ends changes neither whether it is accepted nor the contract it gives
nor whether `from_str` panics. -/
theorem C55_from_str (env : Env) (hU : env.chars.Apart) (doc : Str) (ha : AsciiStrings (yielded env.chars doc)) :
    (∀ c, fromStr env (crlf doc) = .ok c ↔ fromStr env doc = .ok c) ∧
      (fromStr env (crlf doc) = .panic ↔ fromStr env doc = .panic) := by
  obtain ⟨ht, hp⟩ := C55_tokens env.chars doc ha
  have htok : (yielded env.chars (crlf doc)).map (·.tok) =
      (yielded env.chars doc).map (fun t => t.tok.ren crlf) := by
    have := congrArg (List.map Prod.fst) ht
    simpa [List.map_map, Function.comp_def] using this
  cases hl : lexDoc env.chars doc with
  | none =>
    have hl' := hp.mpr hl
    have hv : Viable (yielded env.chars (crlf doc)) ↔ Viable (yielded env.chars doc) := by
      apply Viable.kinds
      have := congrArg (List.map (Token.ren fun _ => [])) htok
      simpa [List.map_map, Function.comp_def, Token.ren_ren] using this
    have e : ∀ c : Contract, fromStr env (crlf doc) ≠ .ok c ∧ fromStr env doc ≠ .ok c := by
      intro c
      constructor
      · simp only [fromStr, hl']; split <;> simp
      · simp only [fromStr, hl]; split <;> simp
    refine ⟨fun c => ⟨fun h => absurd h (e c).1, fun h => absurd h (e c).2⟩, ?_⟩
    simp only [fromStr, hl, hl']
    by_cases h : Viable (yielded env.chars doc)
    · rw [if_pos h, if_pos (hv.mpr h)]
    · rw [if_neg h, if_neg (fun h' => h (hv.mp h'))]; simp
  | some ts =>
    cases hl' : lexDoc env.chars (crlf doc) with
    | none => rw [hp.mp hl'] at hl; simp at hl
    | some ts' =>
      rw [yielded_of_lexDoc hl, yielded_of_lexDoc hl'] at htok
      have hr := C49_rename crlfName crlfName_renaming env env doc (crlf doc) ts ts' hl hl' (by
        rw [htok]
        apply List.map_congr_left
        intro t hm
        exact (crlfName_ren (C09_well_formed env.chars doc t (by rw [yielded_of_lexDoc hl]; exact hm))).symm)
      cases hf : fromStr env doc with
      | ok c =>
        have hfix : c.ren crlfName = c := by
          obtain ⟨h1, h2⟩ := C52_legal env hU doc c hf
          refine Contract.ren_fixed c fun s hs => ?_
          unfold crlfName
          split
          · rfl
          · exact crlf_eq_self (legal_no_newline h1 h2 s hs)
        rw [hf] at hr
        generalize fromStr env (crlf doc) = r at hr ⊢
        cases hr
        rw [hfix]
        simp
      | err e =>
        rw [hf] at hr
        generalize fromStr env (crlf doc) = r at hr ⊢
        cases hr
        simp
      | panic =>
        rw [hf] at hr
        generalize fromStr env (crlf doc) = r at hr ⊢
        cases hr
        simp

/-- A document with several lines, a literal that spans lines, and a comment. -/
def linesDoc : Str := str! "scilla_version 0\n(* a\n b *)contract C\n(a : Int32)\nfield s : String = \"x\\\ny\"\ntransition T ()\nend\n"

example : AsciiStrings (yielded demoU linesDoc) ∧ crlf linesDoc ≠ linesDoc ∧
    fromStr demoEnv linesDoc =
      .ok ⟨str! "C", [⟨str! "a", .int32⟩], [⟨str! "s", .string⟩], [⟨str! "T", []⟩]⟩ :=
  ⟨asciiStrings_of_ascii _ _ (by unfold Ascii; decide), by decide, by decide +kernel⟩

/-- The condition on string literals is needed: the lexer loses as many characters after a literal as it has
more bytes than characters, and then it matters whether a newline is one character or two. -/
theorem C55_ascii_needed : ∃ doc c, fromStr demoEnv doc = .ok c ∧ fromStr demoEnv (crlf doc) ≠ .ok c := by
  refine ⟨str! "scilla_version 0 contract C () field s : String = \"ää\"\nx", ⟨str! "C", [], [⟨str! "s", .string⟩], []⟩,
    by decide +kernel, ?_⟩
  have h : fromStr demoEnv (crlf (str! "scilla_version 0 contract C () field s : String = \"ää\"\nx")) =
      .err (.parseError []) := by decide +kernel
  rw [h]; simp

end Verif
