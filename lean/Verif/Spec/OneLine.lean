import Verif.Model.Basic
import Verif.Model.Token
/-
The `{:#?}` text on one line: a line break with the blanks after it is
* dropped after `(` and `[`,
* one blank after `{`,
* after a comma: dropped, with the comma, before `)` and `]`; one blank instead of the comma before `}`; otherwise one
  blank after the comma.
-/
namespace Verif

/-- the characters after which a line ends -/
def endsLine (c : Char) : Bool := c == '(' || c == '[' || c == '{' || c == ','

/-- what is written for `d`, a line break and blanks, if the next line starts with `c` -/
def seam (d c : Char) : Str :=
  if d = ',' then
    if c = ')' ∨ c = ']' then [] else if c = '}' then [' '] else [',', ' ']
  else if d = '{' then ['{', ' ']
  else [d]

/-- where we are in the text: anywhere, after a character `d` that may end the line, or in the blanks of the next line -/
inductive Spot where
  | text
  | after (d : Char)
  | blanks (d : Char)

def oneLineAt : Spot → Str → Str
  | .text, [] => []
  | .after d, [] => [d]
  | .blanks d, [] => [d]
  | .text, c :: s => if endsLine c then oneLineAt (.after c) s else c :: oneLineAt .text s
  | .after d, c :: s =>
    if c = '\n' then oneLineAt (.blanks d) s
    else d :: if endsLine c then oneLineAt (.after c) s else c :: oneLineAt .text s
  | .blanks d, c :: s =>
    if c = ' ' then oneLineAt (.blanks d) s
    else seam d c ++ if endsLine c then oneLineAt (.after c) s else c :: oneLineAt .text s

def oneLine (s : Str) : Str := oneLineAt .text s

end Verif
