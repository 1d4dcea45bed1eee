import Verif.Proofs.GrammarFile
import Verif.Props.Reprint
/-
C59: the parsers accept exactly what the productions of parser.lalrpop generate.
-/
namespace Verif

/-- every nonterminal of the file: the parser of that name accepts a token sequence exactly if the productions of the
file generate it -/
theorem C59_parsers (x : GName) (toks : List STok) :
    (∃ v, parseAs x.nt toks = some v) ↔ Gen [.non x] (toks.map (·.tok)) := by
  have hb : x.nt.base = true := by cases x <;> rfl
  rw [← derives_iff_gen]
  exact exists_congr fun v => C44_exact x.nt hb toks v

/-- whole programs: the token lists that are not syntax errors are those generated
by `Program` -/
theorem C59_program (toks : List STok) :
    (∃ p, parseProgram toks = some p) ↔ Gen [.non .Program] (toks.map (·.tok)) := by
  rw [← C59_parsers .Program toks]
  show _ ↔ ∃ v, parseAs .program toks = some v
  rw [C44_program]

/-- the trees of the specification exist for exactly these sequences: the specification `Derives` used by the other
properties adds nothing to the file and leaves nothing out -/
theorem C59_specification (x : GName) (toks : List STok) :
    (∃ v, Derives x.nt toks v) ↔ Gen [.non x] (toks.map (·.tok)) := derives_iff_gen x toks

/-- the texts of names and literals do not matter for acceptance -/
theorem C59_texts (x : GName) (a b : List STok) (h : a.map (·.tok.kind) = b.map (·.tok.kind)) :
    (∃ v, parseAs x.nt a = some v) ↔ (∃ v, parseAs x.nt b = some v) := by
  have key : ∀ {α : List FSym} {w : List Token}, Gen α w → ∀ w', w'.map Token.kind = w.map Token.kind → Gen α w' := by
    intro α w hg
    induction hg with
    | nil => intro w' hw; simp only [List.map_nil, List.map_eq_nil_iff] at hw; subst hw; exact .nil
    | tok hk _ ih =>
      intro w' hw
      obtain ⟨t', l, rfl, h1, h2⟩ := List.map_eq_cons_iff.1 hw
      exact .tok (h1.trans hk) (ih l h2)
    | non hq _ _ ih1 ih2 =>
      intro w' hw
      rw [List.map_append] at hw
      obtain ⟨l1, l2, rfl, h1, h2⟩ := List.map_eq_append_iff.1 hw
      exact .non hq (ih1 l1 h1) (ih2 l2 h2)
    | optNone _ ih => intro w' hw; exact .optNone (ih w' hw)
    | optSome _ _ ih1 ih2 =>
      intro w' hw
      rw [List.map_append] at hw
      obtain ⟨l1, l2, rfl, h1, h2⟩ := List.map_eq_append_iff.1 hw
      exact .optSome (ih1 l1 h1) (ih2 l2 h2)
    | starNil _ ih => intro w' hw; exact .starNil (ih w' hw)
    | starCons _ _ ih1 ih2 =>
      intro w' hw
      rw [List.map_append] at hw
      obtain ⟨l1, l2, rfl, h1, h2⟩ := List.map_eq_append_iff.1 hw
      exact .starCons (ih1 l1 h1) (ih2 l2 h2)
    | plus _ _ ih1 ih2 =>
      intro w' hw
      rw [List.map_append] at hw
      obtain ⟨l1, l2, rfl, h1, h2⟩ := List.map_eq_append_iff.1 hw
      exact .plus (ih1 l1 h1) (ih2 l2 h2)
  rw [C59_parsers, C59_parsers]
  have h' : (a.map (·.tok)).map Token.kind = (b.map (·.tok)).map Token.kind := by
    rw [List.map_map, List.map_map]; exact h
  exact ⟨fun hg => key hg _ h'.symm, fun hg => key hg _ h'⟩

/-- Concrete case: the demonstration contract is generated by the file; one token less is not. -/
theorem C59_witness : Gen [.non .Program] (demoToks.map (·.tok)) ∧
    ¬ Gen [.non .Program] ((demoToks.dropLast).map (·.tok)) := by
  rw [← C59_program, ← C59_program]
  refine ⟨demo_parses, ?_⟩
  have h : (parseProgram demoToks.dropLast).isNone = true := by decide +kernel
  rintro ⟨p, hp⟩
  simp [hp] at h

end Verif
