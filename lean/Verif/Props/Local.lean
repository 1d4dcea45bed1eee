import Verif.Proofs.LexLocal
import Verif.Props.Append
/-
C57: edits are local.  `Boundary U pre ts post` (Spec/Editing.lean): in the document `pre ++ post` the lexer has
yielded the tokens `ts` when `post` is what is left to be read.
-/
namespace Verif

theorem Boundary.trace {U : CharClass} {pre post : Str} {ts : List Token} (h : Boundary U pre ts post) :
    ∃ xs σ, Trace U (.init (pre ++ post)) xs σ ∧ xs.map (·.tok) = ts ∧ σ.rest = post ∧ σ.offset = bytes pre := by
  obtain ⟨σ, hc, hr⟩ := h
  obtain ⟨xs, ht, e⟩ := hc.trace
  refine ⟨xs, σ, ht, e, hr, ?_⟩
  have := ht.suffix.2
  simp only [LexState.init, bytes_append, hr] at this
  omega

theorem Shifted.of_state (σ : LexState) : ∃ c d, ∀ X : Str,
    Shifted σ.offset σ.line c d (.init X) { σ with rest := X } :=
  ⟨σ.character, σ.character + (σ.offset - σ.lastPosition), fun _ =>
    ⟨rfl, by simp [LexState.init], by simp [LexState.init], fun _ => ⟨rfl, rfl, rfl, rfl, rfl⟩,
      fun h => absurd rfl h⟩⟩

/-- C57: the tokens after a boundary are those of the remaining text alone, moved to their place: byte positions by
the length of the text before, lines by a fixed number, columns only as long as no line break was read. -/
theorem C57_after (U : CharClass) (pre post : Str) (ts : List Token) (hb : Boundary U pre ts post) :
    ∃ lines col col', yielded U (pre ++ post) = (yielded U (pre ++ post)).take ts.length ++
        (yielded U post).map (STok.relocate (bytes pre) lines col col') ∧
      ((yielded U (pre ++ post)).take ts.length).map (·.tok) = ts ∧
      (lexDoc U (pre ++ post) = none ↔ lexDoc U post = none) := by
  obtain ⟨xs, σ, ht, e, hr, ho⟩ := hb.trace
  obtain ⟨c, d, hs⟩ := Shifted.of_state σ
  have hs := hs post
  have hσ : { σ with rest := post } = σ := by rw [← hr]
  rw [hσ, ho] at hs
  have h1 : yielded U (pre ++ post) = xs ++ tokensFrom U σ := ht.tokensFrom.1
  have h2 : lexDoc U (pre ++ post) = (drain U σ).map (xs ++ ·) := ht.tokensFrom.2
  obtain ⟨h3, h4⟩ := hs.run (U := U)
  have hlen : xs.length = ts.length := by rw [← e, List.length_map]
  have htake : (xs ++ tokensFrom U σ).take ts.length = xs := by
    rw [← hlen, List.take_left]
  refine ⟨σ.line, c, d, ?_, ?_, ?_⟩
  · rw [h1, htake, h3]; rfl
  · rw [h1, htake, e]
  · rw [h2, h4, lexDoc_eq_drain]; simp

/-- C57: the tokens before a boundary, and their positions, do not change when the text after it is replaced by
another one that starts with a space or a parenthesis; and the tokens of the new document after them are those of
the new text, all moved in the same way.  (When the lexer treats non-ASCII letters the old text must start like
that too, and a quote in one of the two texts but not in the other needs the condition of C42.) -/
theorem C57_local (U : CharClass) (pre post : Str) (ts : List Token) (hb : Boundary U pre ts post)
    (hok : (∃ c q, post = c :: q ∧ (AsciiWhite c ∨ c = '(')) ∨ (post ≠ [] ∧ Ascii (pre ++ post))) :
    ∃ lines col col', ∀ c q, (AsciiWhite c ∨ c = '(') →
      (('"' ∈ post ↔ '"' ∈ c :: q) ∨ ∀ t ∈ ts, t.steady) →
      yielded U (pre ++ c :: q) = (yielded U (pre ++ post)).take ts.length ++
        (yielded U (c :: q)).map (STok.relocate (bytes pre) lines col col') ∧
      ((yielded U (pre ++ post)).take ts.length).map (·.tok) = ts ∧
      (lexDoc U (pre ++ c :: q) = none ↔ lexDoc U (c :: q) = none) := by
  obtain ⟨xs, σ, ht, e, hr, ho⟩ := hb.trace
  obtain ⟨col, d, hs⟩ := Shifted.of_state σ
  have hlen : xs.length = ts.length := by rw [← e, List.length_map]
  have htake : (yielded U (pre ++ post)).take ts.length = xs := by
    have h1 : yielded U (pre ++ post) = xs ++ tokensFrom U σ := ht.tokensFrom.1
    rw [h1, ← hlen, List.take_left]
  refine ⟨σ.line, col, d, fun c q hc hq => ?_⟩
  have hn : post ≠ [] := by
    rcases hok with ⟨c, q, rfl, -⟩ | ⟨h, -⟩
    · simp
    · exact h
  have hok' : TailOk pre post := hok.imp id fun h => h.2
  have hq' : ('"' ∈ post ↔ '"' ∈ c :: q) ∨ ∀ t ∈ xs, t.tok.steady :=
    hq.imp id fun h t m => h _ (by rw [← e]; exact List.mem_map_of_mem m)
  have ht' := ht.tail hn (X' := c :: q) ⟨c, q, rfl, hc⟩ hr pre rfl hok' hq'
  have hs := hs (c :: q)
  have h1 : yielded U (pre ++ c :: q) = xs ++ tokensFrom U { σ with rest := c :: q } := ht'.tokensFrom.1
  have h2 : lexDoc U (pre ++ c :: q) = (drain U { σ with rest := c :: q }).map (xs ++ ·) := ht'.tokensFrom.2
  obtain ⟨h3, h4⟩ := hs.run (U := U)
  refine ⟨?_, by rw [htake, e], ?_⟩
  · rw [h1, htake, h3, ho]; rfl
  · rw [h2, h4, lexDoc_eq_drain]; simp

/-- Premises met: after `transition T` of a contract, before the spaces that follow. -/
example : ∃ ts, Boundary demoU (str! "contract C ()\n transition T") ts (str! " (a : Bool) end") ∧ ts.length = 6 := by
  refine ⟨[.contract, .customIdentifier ['C'], .openParen, .closeParen, .transition, .customIdentifier ['T']],
    ?_, rfl⟩
  have h : ((callsN demoU 6 (.init (str! "contract C ()\n transition T (a : Bool) end"))).map fun r => (r.1, r.2.rest)) =
      some ([.contract, .customIdentifier ['C'], .openParen, .closeParen, .transition, .customIdentifier ['T']],
        str! " (a : Bool) end") := by decide +kernel
  simp only [Option.map_eq_some_iff, Prod.mk.injEq] at h
  obtain ⟨⟨ts, σ⟩, h, rfl, e⟩ := h
  exact ⟨σ, callsN_calls demoU 6 _ _ _ h, e⟩

/-- The new text must be separated: otherwise its first characters are read as part of the token before. -/
theorem C57_separator_needed : ∃ (pre post post' : Str) (ts : List Token), Boundary demoU pre ts post ∧
    (yielded demoU (pre ++ post')).take ts.length ≠ (yielded demoU (pre ++ post)).take ts.length := by
  refine ⟨str! "end", str! " x", str! "x", [.end_], ?_, by decide +kernel⟩
  exact ⟨⟨str! " x", 3, 0, 0, 0⟩, .cons (t := ⟨⟨0, 0, 0⟩, .end_, ⟨3, 0, 3⟩⟩) (by decide +kernel) (.nil _), rfl⟩

end Verif
