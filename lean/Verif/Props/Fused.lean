import Verif.Props.Lexer1
import Verif.Props.Parser1
/-
C01  (continued)  An exhausted lexer stays exhausted.
-/
namespace Verif

/-- `σ'` is the state in which a call of `next()` made in the state `σ` ends when it returns nothing: the loop in the body of
`next` skips and skips, until there is no further character. -/
inductive Exhausts (U : CharClass) : LexState → LexState → Prop
  | eof {σ : LexState} : lexStep U σ = .eof → Exhausts U σ σ
  | skip {σ σ' σ'' : LexState} : lexStep U σ = .skip σ' → Exhausts U σ' σ'' → Exhausts U σ σ''

theorem Exhausts.rest {U : CharClass} {σ σ' : LexState} (h : Exhausts U σ σ') : σ'.rest = [] := by
  induction h with
  | @eof σ h =>
    cases e : σ.rest with
    | nil => rfl
    | cons c r =>
      simp only [lexStep, e] at h
      split at h
      · split at h <;> cases h
      · cases h
      · cases h
      · cases h
  | skip _ _ ih => exact ih

theorem lexNext_nil (U : CharClass) {σ : LexState} (h : σ.rest = []) : lexNext U σ = .none := by
  rw [lexNext_eq]
  have : lexStep U σ = .eof := by simp only [lexStep, h]
  rw [this]

/-- C01: a call that returns nothing leaves the lexer with nothing to read, so that every later call returns nothing as well:
`next()` behaves as a fused iterator. -/
theorem C01_fused (U : CharClass) (σ : LexState) :
    (lexNext U σ = .none ↔ ∃ σ', Exhausts U σ σ') ∧
    ∀ σ', Exhausts U σ σ' → σ'.rest = [] ∧ lexNext U σ' = .none ∧ Exhausts U σ' σ' ∧ ∀ τ, Exhausts U σ' τ → τ = σ' := by
  refine ⟨⟨fun h => ?_, ?_⟩, fun σ' h => ?_⟩
  · generalize hn : σ.rest.length = n
    induction n using Nat.strongRecOn generalizing σ with
    | _ n ih =>
      rw [lexNext_eq] at h
      split at h
      · exact ⟨σ, .eof (by assumption)⟩
      · rename_i σ1 h1
        have hlt := lexStep_skip_lt h1
        obtain ⟨τ, hτ⟩ := ih _ (by omega) _ h rfl
        exact ⟨τ, .skip h1 hτ⟩
      · cases h
      · cases h
  · rintro ⟨σ', h⟩
    induction h with
    | eof h => rw [lexNext_eq, h]
    | skip h _ ih => rw [lexNext_eq, h]; exact ih
  · have hr := h.rest
    have he : lexStep U σ' = .eof := by simp only [lexStep, hr]
    refine ⟨hr, lexNext_nil U hr, .eof he, fun τ hτ => ?_⟩
    cases hτ with
    | eof => rfl
    | skip h1 _ => rw [he] at h1; cases h1

/-- The premise is met: a document that ends in layout. -/
theorem C01_fused_witness : ∃ σ', Exhausts demoU (.init (str! "  (* note *)\n ")) σ' ∧ σ' ≠ .init (str! "  (* note *)\n ") := by
  obtain ⟨σ', h⟩ := (C01_fused demoU (.init (str! "  (* note *)\n "))).1.1 (by decide +kernel)
  refine ⟨σ', h, fun e => ?_⟩
  have := h.rest
  rw [e] at this
  cases this

end Verif
