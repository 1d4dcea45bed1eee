import Verif.Proofs.ParserSound
/-
First and follow sets of the grammar: what a derivable word can start with.
-/
namespace Verif

/-- terminals a nonempty word of the nonterminal can start with -/
def heads : NT → List Token
  | .star n => heads n
  | .plus n => heads n
  | .opt n => heads n
  | n => first n

def Head (n : NT) (w : List STok) : Prop := ∀ t ts, w = t :: ts → t.tok.kind ∈ heads n

theorem Head.mono {m n : NT} {w : List STok} (h : Head m w)
    (hs : ∀ k ∈ heads m, k ∈ heads n) : Head n w := fun t ts e => hs _ (h t ts e)

theorem Head.app {m n : NT} {w1 w2 : List STok} {v : Val m} (d : Derives m w1 v)
    (h : Head m w1) (hm : nullable m = false) (hs : ∀ k ∈ heads m, k ∈ heads n) :
    Head n (w1 ++ w2) := by
  intro t ts e
  cases w1 with
  | nil => exact absurd rfl (d.ne_nil hm)
  | cons a w1 =>
    injection e with e1 e2; subst e1
    exact hs _ (h _ _ rfl)

theorem Head.tok {n : NT} {t : STok} {ts : List STok} (h : t.tok.kind ∈ heads n) :
    Head n (t :: ts) := by
  intro a b e; injection e with e1 e2; subst e1; exact h

theorem Derives.headed {n : NT} {w : List STok} {v : Val n} (h : Derives n w v) : Head n w := by
  induction h with
  | starNil => intro t ts e; cases e
  | optNone => intro t ts e; cases e
  | optSome _ ih => exact ih
  | starCons _ _ ih1 ih2 =>
    rename_i w1 _ w2 _ _ _
    intro t ts e
    cases w1 with
    | nil => exact ih2 t ts e
    | cons a w1 =>
      injection e with e1 e2; subst e1; exact ih1 _ _ rfl
  | plusIntro _ _ ih1 ih2 =>
    rename_i w1 _ w2 _ _ _
    intro t ts e
    cases w1 with
    | nil => exact ih2 t ts e
    | cons a w1 =>
      injection e with e1 e2; subst e1; exact ih1 _ _ rfl
  | @compBody w w1 b s1 e1 he d ih =>
    subst he
    intro t ts e
    cases w1 with
    | nil => injection e with e1 e2; subst e1; exact (by decide : Token.end_.kind ∈ heads .compBody)
    | cons a w1 =>
      injection e with e1 e2; subst e1
      exact (by decide : ∀ k ∈ heads (.opt .stmtBlock), k ∈ heads .compBody) _ (ih _ _ rfl)
  | _ =>
    subst_vars
    first
      | exact Head.tok (by simp [Token.kind, heads, first, statementFirst, fullExprFirst, typeNameFirst, metaFirst, varFirst, typeArgFirst, componentFirst, remainingFirst, valueLitFirst])
      | exact Head.app ‹_› ‹_› rfl (by decide)
      | exact Head.mono ‹_› (by decide)

end Verif
