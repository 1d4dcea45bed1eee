import Verif.Spec.Lexical
/-
Line ends.
-/
namespace Verif

/-- The text with a carriage return before every newline: a file saved with Windows line ends. -/
def crlf (s : Str) : Str := s.flatMap fun c => if c = '\n' then ['\r', '\n'] else [c]

/-- the string literals among the tokens consist of ASCII characters -/
def AsciiStrings (ts : List STok) : Prop := ∀ t ∈ ts, ∀ s, t.tok = .stringLiteral s → Ascii s

end Verif
