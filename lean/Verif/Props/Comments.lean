import Verif.Proofs.LexTail
import Verif.Props.Layout
/-
Editing a document between two tokens: C42 (comment bodies) and the insertion part of C18.
`Boundary U pre ts post` (Spec/Editing.lean): in the document `pre ++ post` the lexer has yielded `ts`
when `post` is left.
-/
namespace Verif

/-- Documents that yield the same tokens (positions apart), up to the end of both, or up to a panic of the
lexer in both. -/
def SameTokens (U : CharClass) (d d' : Str) : Prop :=
  (yielded U d).map (·.tok) = (yielded U d').map (·.tok) ∧ (lexDoc U d = none ↔ lexDoc U d' = none)

theorem sameTokens_of {U : CharClass} {d d' : Str} (h : SameLex U d d') : SameTokens U d d' := by
  refine ⟨h.1, ?_⟩
  have := h.2
  unfold lexToks at this
  cases h1 : lexDoc U d <;> cases h2 : lexDoc U d' <;> rw [h1, h2] at this <;> simp at this ⊢

/-- Continuability does not depend on positions. -/
theorem Viable.bare {a b : List STok} (h : a.map (·.tok) = b.map (·.tok)) : Viable a ↔ Viable b := by
  have key : ∀ {a b : List STok}, a.map (·.tok) = b.map (·.tok) → Viable a → Viable b := by
    rintro a b h ⟨rest, hr⟩
    refine ⟨rest, ?_⟩
    have := parse_bare (a := a ++ rest) (b := b ++ rest) (by simp [Verif.bare, h])
    cases ha : parseProgram (a ++ rest) <;> cases hb : parseProgram (b ++ rest) <;> rw [ha, hb] at this <;>
      simp_all
  exact ⟨key h, key h.symm⟩

theorem SameTokens.result {env : Env} {d d' : Str} (h : SameTokens env.chars d d') :
    SameResult (fromStr env d) (fromStr env d') ∧ ∀ c, fromStr env d = .ok c ↔ fromStr env d' = .ok c := by
  obtain ⟨he, hn⟩ := h
  cases h1 : lexDoc env.chars d with
  | none =>
    have h2 := hn.mp h1
    have hv := Viable.bare he
    simp only [fromStr, h1, h2]
    by_cases hd : Viable (yielded env.chars d)
    · rw [if_pos hd, if_pos (hv.mp hd)]
      exact ⟨.same _, by simp⟩
    · rw [if_neg hd, if_neg (fun h => hd (hv.mpr h))]
      exact ⟨.syntaxErrors _ _, by simp⟩
  | some ts =>
    cases h2 : lexDoc env.chars d' with
    | none => rw [hn.mpr h2] at h1; simp at h1
    | some ts' =>
      rw [yielded_of_lexDoc h1, yielded_of_lexDoc h2] at he
      exact ⟨(C18_documents env d d' ts ts' h1 h2 he).1, C18_same_contract env d d' ts ts' h1 h2 he⟩

/-! ## C42 — the body of a comment -/

/-- C42: at a token boundary, behind any layout, the body of a closed comment may be replaced by any
other body without `*)`: the tokens of the document, and the result of `from_str`, stay the same — if
the replacement does not bring the first or remove the last quote behind the boundary, or if none of
the tokens before it is an unrecognised character or a string literal ending in an escaped quote. -/
theorem C42_comment_body (env : Env) (pre lay b b' post : Str) (ts : List Token)
    (hb : Boundary env.chars pre ts (lay ++ (str! "(*" ++ (b ++ (str! "*)" ++ post)))))
    (hl : Layout lay) (h : NoClose b) (h' : NoClose b')
    (hq : ('"' ∈ b ↔ '"' ∈ b') ∨ '"' ∈ lay ++ post ∨ ∀ t ∈ ts, t.steady) :
    SameTokens env.chars (pre ++ (lay ++ (str! "(*" ++ (b ++ (str! "*)" ++ post)))))
        (pre ++ (lay ++ (str! "(*" ++ (b' ++ (str! "*)" ++ post))))) ∧
      SameResult (fromStr env (pre ++ (lay ++ (str! "(*" ++ (b ++ (str! "*)" ++ post))))))
        (fromStr env (pre ++ (lay ++ (str! "(*" ++ (b' ++ (str! "*)" ++ post)))))) := by
  have hbr : ∀ b : Str, Break (lay ++ (str! "(*" ++ (b ++ (str! "*)" ++ post)))) := by
    intro b
    cases lay with
    | nil => exact ⟨'(', _, rfl, .inr rfl⟩
    | cons c lay => exact hl.break (by simp) _
  have hn : lay ++ (str! "(*" ++ (b ++ (str! "*)" ++ post))) ≠ [] := by simp
  have he : ∀ b : Str, NoClose b → SameLex env.chars (lay ++ (str! "(*" ++ (b ++ (str! "*)" ++ post)))) post := by
    intro b hb
    exact (sameLex_layout _ hl _).trans (sameLex_comment _ b post hb)
  have ht := sameTokens_of (hb.replace hn (.inl (hbr b)) (hbr b')
    (by
      rcases hq with hq | hq | hq
      · left; simp [hq]
      · left
        simp only [List.mem_append] at hq ⊢
        rcases hq with hq | hq <;> simp [hq]
      · exact .inr hq)
    ((he b h).trans (he b' h').symm))
  exact ⟨ht, ht.result.1⟩

/-- The condition on quotes cannot be dropped: with a string literal ending in an escaped quote before
it, a quote inside a comment changes the tokens. -/
theorem C42_quote_needed :
    ∃ (pre b b' : Str) (ts : List Token), NoClose b ∧ NoClose b' ∧
      Boundary demoU pre ts (str! "(*" ++ (b ++ str! "*)")) ∧
      ¬ SameTokens demoU (pre ++ (str! "(*" ++ (b ++ str! "*)"))) (pre ++ (str! "(*" ++ (b' ++ str! "*)"))) := by
  have nc : ∀ s : Str, s.length ≤ 1 → NoClose s := by
    intro s hs h
    have := h.length_le
    simp at this; omega
  refine ⟨str! "\"\\\"", str! "a", str! "\"", [.stringLiteral (str! "\"\\\"")], nc _ (by decide), nc _ (by decide), ?_, ?_⟩
  · exact ⟨⟨str! "(*a*)", 3, 0, 0, 0⟩, .cons (t := ⟨⟨0, 0, 0⟩, .stringLiteral (str! "\"\\\""), ⟨3, 0, 3⟩⟩)
      (by decide +kernel) (.nil _), rfl⟩
  · rintro ⟨h, _⟩
    revert h; decide +kernel

/-- The premises of `C42_comment_body` are met in the middle of a contract, with a comment body full of
code. -/
example : ∃ (pre lay b b' post : Str) (ts : List Token),
    pre = str! "scilla_version 0 contract" ∧ lay = str! " " ∧ b = str! " field x : Uint32 = (*" ∧ b' = str! ")" ∧
    post = str! " C(a : Uint32)" ∧
    Boundary demoU pre ts (lay ++ (str! "(*" ++ (b ++ (str! "*)" ++ post)))) ∧ ts.length = 3 ∧
    Layout lay ∧ ('"' ∈ b ↔ '"' ∈ b') ∧ ∃ c, fromStr demoEnv (pre ++ (lay ++ (str! "(*" ++ (b ++ (str! "*)" ++ post))))) = .ok c := by
  refine ⟨_, _, _, _, _, [.scillaVersion, .number (str! "0"), .contract], rfl, rfl, rfl, rfl, rfl,
    ⟨⟨str! " (* field x : Uint32 = (**) C(a : Uint32)", 25, 0, 17, 17⟩, ?_, rfl⟩, rfl, .white _ _ (.inl rfl) .nil,
    by decide, ?_⟩
  · refine .cons (t := ⟨⟨0, 0, 0⟩, .scillaVersion, ⟨14, 0, 14⟩⟩) (σ' := ⟨str! " 0 contract (* field x : Uint32 = (**) C(a : Uint32)", 14, 0, 0, 0⟩)
      (by decide +kernel) (.cons (t := ⟨⟨15, 0, 14⟩, .number (str! "0"), ⟨16, 0, 15⟩⟩) (σ' := ⟨str! " contract (* field x : Uint32 = (**) C(a : Uint32)", 16, 0, 15, 15⟩) (by decide +kernel) (.cons (t := ⟨⟨17, 0, 16⟩, .contract, ⟨25, 0, 24⟩⟩) (by decide +kernel) (.nil _)))
  · exact ⟨⟨str! "C", [⟨str! "a", .uint32⟩], [], []⟩, by decide +kernel⟩

/-! ## C18 — inserting, removing and rewriting layout -/

/-- C18: at a token boundary of an ASCII document, except at the very end, any layout may be inserted:
tokens and result stay the same, with the same condition on quotes as in C42. -/
theorem C18_insert_layout (env : Env) (pre lay post : Str) (ts : List Token)
    (hb : Boundary env.chars pre ts post) (ha : Ascii (pre ++ post)) (hn : post ≠ []) (hl : Layout lay)
    (hq : ('"' ∈ lay → '"' ∈ post) ∨ ∀ t ∈ ts, t.steady) :
    SameTokens env.chars (pre ++ post) (pre ++ (lay ++ post)) ∧
      SameResult (fromStr env (pre ++ post)) (fromStr env (pre ++ (lay ++ post))) := by
  cases lay with
  | nil => exact ⟨sameTokens_of ⟨rfl, rfl⟩, .same _⟩
  | cons c lay =>
    have ht := sameTokens_of (hb.replace hn (.inr ha) (hl.break (by simp) post)
      (hq.imp (fun hq => by
        rw [List.mem_append]
        exact ⟨.inr, fun h => h.elim hq id⟩) id)
      (sameLex_layout _ hl post).symm)
    exact ⟨ht, ht.result.1⟩

/-- In any document, one non-empty layout may be replaced by another. -/
theorem C18_replace_layout (env : Env) (pre lay lay' post : Str) (ts : List Token)
    (hb : Boundary env.chars pre ts (lay ++ post)) (hl : Layout lay) (hn : lay ≠ [])
    (hl' : Layout lay') (hn' : lay' ≠ [])
    (hq : ('"' ∈ lay ↔ '"' ∈ lay') ∨ '"' ∈ post ∨ ∀ t ∈ ts, t.steady) :
    SameTokens env.chars (pre ++ (lay ++ post)) (pre ++ (lay' ++ post)) ∧
      SameResult (fromStr env (pre ++ (lay ++ post))) (fromStr env (pre ++ (lay' ++ post))) := by
  have ht := sameTokens_of (hb.replace (by simp [hn]) (.inl (hl.break hn post)) (hl'.break hn' post)
    (by
      rcases hq with hq | hq | hq
      · left; simp [hq]
      · left; simp [hq]
      · exact .inr hq)
    ((sameLex_layout _ hl post).trans (sameLex_layout _ hl' post).symm))
  exact ⟨ht, ht.result.1⟩

/-- Inserting a comment with a quote after `contract`, and rewriting the blank before `C`. -/
example : ∃ (pre post : Str) (ts : List Token), Boundary demoU pre ts post ∧ Ascii (pre ++ post) ∧
    post = str! " C()" ∧ (∀ t ∈ ts, t.steady) ∧ Layout (str! "(*\"*)") ∧ ts = [.contract] := by
  refine ⟨str! "contract", str! " C()", [.contract], ⟨⟨str! " C()", 8, 0, 0, 0⟩, ?_, rfl⟩, by unfold Ascii; decide, rfl, ?_, ?_, rfl⟩
  · exact .cons (t := ⟨⟨0, 0, 0⟩, .contract, ⟨8, 0, 8⟩⟩) (by decide +kernel) (.nil _)
  · intro t ht
    simp at ht; subst ht
    exact ⟨by simp, by simp⟩
  · exact .comment ['"'] [] (fun h => by have := h.length_le; simp at this) .nil

end Verif
