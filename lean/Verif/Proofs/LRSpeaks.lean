import Verif.Proofs.LRDrive
import Verif.Proofs.Desugar
import Verif.Props.GrammarFile
/-
The grammar of the generated parser describes the programs.
-/
namespace Verif.LR

variable {start : GName}

/-- the terminals of the grammar are numbers of tokens -/
theorem desugared_tok {r : Rule} (hr : r ∈ (desugaredFor start)) {a : Nat} (ha : .t a ∈ r.rhs) : ∃ t, code t = some a := by
  rcases mem_desugared.1 hr with rfl | ⟨q, hq, β, hβ, rfl⟩ | ⟨y, _, rfl | rfl⟩
  · simp at ha
  · have : ∀ (α : List FSym) (β : List Sym), β ∈ expand α → .t a ∈ β → ∃ t, code t = some a := by
      intro α
      induction α with
      | nil => intro β hβ ha; simp [expand] at hβ; subst hβ; cases ha
      | cons f α ih =>
        intro β hβ ha
        obtain ⟨u, hu, β', hβ', rfl⟩ := mem_expand_cons.1 hβ
        rcases List.mem_append.1 ha with ha | ha
        · cases f with
          | tok k =>
            simp only [alts] at hu
            split at hu
            · rename_i b hb
              simp at hu
              subst hu
              simp at ha
              subst ha
              exact ⟨k, hb⟩
            · cases hu
          | non x => simp [alts] at hu; subst hu; simp at ha
          | opt x => simp [alts] at hu; rcases hu with rfl | rfl <;> simp at ha
          | star x => simp [alts] at hu; rcases hu with rfl | rfl <;> simp at ha
          | plus x => simp [alts] at hu; subst hu; simp at ha
        · exact ih β' hβ' ha
    exact this _ _ hβ ha
  · simp at ha
  · simp at ha

theorem der_tok {α : List Sym} {w : List Nat} (h : Der (desugaredFor start) α w) : (∀ a, .t a ∈ α → ∃ t, code t = some a) →
    ∀ a ∈ w, ∃ t, code t = some a := by
  induction h with
  | nil => intro _ a ha; cases ha
  | t _ ih =>
    intro hα a ha
    rcases List.mem_cons.1 ha with rfl | ha
    · exact hα _ List.mem_cons_self
    · exact ih (fun b hb => hα b (List.mem_cons_of_mem _ hb)) a ha
  | n hr _ _ ih1 ih2 =>
    intro hα a ha
    rcases List.mem_append.1 ha with ha | ha
    · exact ih1 (fun b hb => desugared_tok hr hb) a ha
    · exact ih2 (fun b hb => hα b (List.mem_cons_of_mem _ hb)) a ha

theorem speaks : Speaks desugared (num .Program) code where
  programs toks := by
    rw [C59_program, gen_iff_der]
    simp only [Coded, List.map_map]
    rfl
  tokens w h := der_tok h (by simp)
  kinds := code_kind

end Verif.LR
