import Verif.Props.Comments
import Verif.Props.Parser2
/-
C43: where a syntax error is decided.
-/
namespace Verif

/-- Some program of the grammar starts with these tokens. -/
def CanContinue (ts : List STok) : Prop := ∃ rest p, Derives .program (ts ++ rest) p

theorem viable_iff (ts : List STok) : Viable ts ↔ CanContinue ts := by
  constructor
  · rintro ⟨rest, h⟩
    obtain ⟨p, hp⟩ := Option.isSome_iff_exists.mp h
    exact ⟨rest, p, C15_sound _ _ hp⟩
  · rintro ⟨rest, p, h⟩
    exact ⟨rest, by rw [C16_complete _ _ h]; rfl⟩

theorem Viable.prefix {a b : List STok} (h : Viable (a ++ b)) : Viable a := by
  obtain ⟨rest, h⟩ := h
  exact ⟨b ++ rest, by rw [← List.append_assoc]; exact h⟩

theorem requested_stop {ts more : List STok} : ∀ {pre : List STok}, ¬ Viable (pre ++ ts) → Viable pre →
    requested pre (ts ++ more) = requested pre ts := by
  induction ts with
  | nil => intro pre h hp; simp at h; exact absurd hp h
  | cons t ts ih =>
    intro pre h hp
    simp only [List.cons_append, requested]
    by_cases hv : Viable (pre ++ [t])
    · rw [if_pos hv, if_pos hv]
      exact ih (by simpa using h) hv
    · rw [if_neg hv, if_neg hv]

theorem viable_nil : Viable [] := by
  refine ⟨(lexDoc demoU (str! "scilla_version 0 contract C()")).getD [], ?_⟩
  decide +kernel

/-- C43: as soon as the tokens yielded so far are not the beginning of any program, the result is a syntax
error, with a text that does not depend on what follows; a panic of the lexer further on is not
reached. -/
theorem C43_error_is_local (env : Env) (d d' : Str) (ts : List STok) (h : ts <+: yielded env.chars d)
    (h' : ts <+: yielded env.chars d') (hc : ¬ CanContinue ts) :
    ∃ msg, fromStr env d = .err (.parseError msg) ∧ fromStr env d' = .err (.parseError msg) := by
  rw [← viable_iff] at hc
  have key : ∀ d, ts <+: yielded env.chars d →
      fromStr env d = .err (.parseError (env.parseErrorText (requested [] ts))) := by
    rintro d ⟨more, hm⟩
    have hr : requested [] (yielded env.chars d) = requested [] ts := by
      rw [← hm]; exact requested_stop (by simpa using hc) viable_nil
    cases hl : lexDoc env.chars d with
    | none =>
      have : ¬ Viable (yielded env.chars d) := by
        rw [← hm]; exact fun h => hc h.prefix
      simp only [fromStr, hl, if_neg this, hr]
    | some toks =>
      have hy := yielded_of_lexDoc hl
      rw [hy] at hr hm
      cases hp : parseProgram toks with
      | none => simp only [fromStr, hl, hp, hr]
      | some p => exact absurd ⟨more, by rw [hm, hp]; rfl⟩ hc
  exact ⟨_, key d h, key d' h'⟩

/-- C43: when the lexer panics on a document, `from_str` panics if the tokens before can be continued to a
program, and is a syntax error otherwise. -/
theorem C43_lexer_panic (env : Env) (doc : Str) (h : lexDoc env.chars doc = none) :
    (CanContinue (yielded env.chars doc) → fromStr env doc = .panic) ∧
    (¬ CanContinue (yielded env.chars doc) → ∃ msg, fromStr env doc = .err (.parseError msg)) := by
  rw [← viable_iff]
  refine ⟨fun hv => ?_, fun hv => ?_⟩
  · simp only [fromStr, h, if_pos hv]
  · exact ⟨env.parseErrorText (requested [] (yielded env.chars doc)), by simp only [fromStr, h, if_neg hv]⟩

/-- Both cases occur: with `é` alphanumeric, `scilla_version é;` panics, `contract é;` is an error. -/
theorem C43_witness (dbg : StackObj → Str) (text : List STok → Str) :
    fromStr ⟨⟨fun _ => true, fun _ => false, fun _ => false⟩, dbg, text⟩ (str! "scilla_version é;") = .panic ∧
    ∃ msg, fromStr ⟨⟨fun _ => true, fun _ => false, fun _ => false⟩, dbg, text⟩ (str! "contract é;") =
      .err (.parseError msg) := by
  have l1 : lexDoc ⟨fun _ => true, fun _ => false, fun _ => false⟩ (str! "scilla_version é;") = none := by
    decide +kernel
  have l2 : lexDoc ⟨fun _ => true, fun _ => false, fun _ => false⟩ (str! "contract é;") = none := by
    decide +kernel
  have y1 : yielded ⟨fun _ => true, fun _ => false, fun _ => false⟩ (str! "scilla_version é;") =
    [⟨⟨0, 0, 0⟩, .scillaVersion, ⟨14, 0, 14⟩⟩] := by decide +kernel
  have y2 : yielded ⟨fun _ => true, fun _ => false, fun _ => false⟩ (str! "contract é;") =
    [⟨⟨0, 0, 0⟩, .contract, ⟨8, 0, 8⟩⟩] := by decide +kernel
  constructor
  · refine (C43_lexer_panic _ _ l1).1 ?_
    simp only [y1]
    rw [← viable_iff]
    exact ⟨((lexDoc demoU (str! "scilla_version 0 contract C()")).getD []).tail, by decide +kernel⟩
  · refine (C43_lexer_panic _ _ l2).2 ?_
    simp only [y2]
    rintro ⟨rest, p, hd⟩
    obtain ⟨s, e, s', e', r, he⟩ := C20_version _ _ (C16_complete _ _ hd)
    simp at he

end Verif
