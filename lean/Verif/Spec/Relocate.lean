import Verif.Spec.Editing
/-
Where a token is found when its text is not the start of a document but comes after other text.
-/
namespace Verif

/-- The token `t`, found at the given place of a text, in a document in which that text is preceded by `bytes`
bytes with `lines` line breaks.  The columns of the first line are shifted too: by `col` for a token that starts
the text and by `col'` for the others (the lexer's columns lag one step behind). -/
def STok.relocate (bytes lines col col' : Nat) (t : STok) : STok :=
  let k := if t.start.line = 0 then (if t.start.position = 0 then col else col') else 0
  { start := ⟨t.start.position + bytes, t.start.line + lines, t.start.column + k⟩
    tok := t.tok
    stop := ⟨t.stop.position + bytes, t.stop.line + lines, t.stop.column + k⟩ }

end Verif
