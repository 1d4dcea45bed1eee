import Verif.Model.Lexer
/-
Specification vocabulary for the lexical properties.  Nothing here refers to the lexer's
functions (`scan`, `lexStep`, ...): only to characters, tokens and positions.
-/
namespace Verif

/-- every character is ASCII -/
def Ascii (s : Str) : Prop := ∀ c ∈ s, c.toNat < 128

/-- A stretch of source text as the lexer sees it: one whitespace character, one comment, or one
token together with the text it was cut from. -/
inductive Seg where
  | white (c : Char)
  | comment (text : Str)
  | token (t : STok) (text : Str)
deriving DecidableEq, Repr

def Seg.text : Seg → Str
  | .white c => [c]
  | .comment s => s
  | .token _ s => s

def segText : List Seg → Str
  | [] => []
  | s :: l => s.text ++ segText l

def segTokens : List Seg → List STok
  | [] => []
  | .token t _ :: l => t :: segTokens l
  | _ :: l => segTokens l

/-- `body` contains no `*)` -/
def NoClose (body : Str) : Prop := ¬ ['*', ')'] <:+: body

/-- ASCII whitespace: space, tab, LF, VT, FF, CR. -/
def AsciiWhite (c : Char) : Prop := c = ' ' ∨ (9 ≤ c.toNat ∧ c.toNat ≤ 13)

/-- A name character `[a-zA-Z0-9_]`. -/
def NameChar (c : Char) : Prop :=
  ('a' ≤ c ∧ c ≤ 'z') ∨ ('A' ≤ c ∧ c ≤ 'Z') ∨ ('0' ≤ c ∧ c ≤ '9') ∨ c = '_'

def Digit (c : Char) : Prop := '0' ≤ c ∧ c ≤ '9'

def HexDigit (c : Char) : Prop := Digit c ∨ ('a' ≤ c ∧ c ≤ 'f') ∨ ('A' ≤ c ∧ c ≤ 'F')

/-- The punctuation characters that are a token on their own. -/
def punctuation : Str :=
  ['+', '*', ';', ':', '.', '|', '[', ']', '(', ')', '{', '}', ',', '&', '@', '=', '-', '_']

/-- Body of a string literal: characters other than `"`, where a `"` is allowed after `\`. -/
inductive StringBody : Str → Prop
  | nil : StringBody []
  | char (c : Char) (s : Str) : c ≠ '"' → StringBody s → StringBody (c :: s)
  | escape (c : Char) (s : Str) : c ≠ '\n' → StringBody s → StringBody ('\\' :: c :: s)

/-- The documented shape of every token class (README grammar / regular expressions). -/
def WellFormed : Token → Prop
  | .byStrWithSize s => ∃ ds, s = str! "ByStr" ++ ds ∧ ds ≠ [] ∧ ∀ c ∈ ds, Digit c
  | .number s => ∃ sg ds, s = sg ++ ds ∧ (sg = [] ∨ sg = ['-']) ∧ ds ≠ [] ∧ ∀ c ∈ ds, Digit c
  | .hexNumber s => ∃ x ds, s = '0' :: x :: ds ∧ (x = 'x' ∨ x = 'X') ∧ (∀ c ∈ ds, HexDigit c) ∧
      ds.length % 2 = 0
  | .identifier s => ∃ c w, s = c :: w ∧ 'a' ≤ c ∧ c ≤ 'z' ∧ ∀ d ∈ w, NameChar d
  | .customIdentifier s => ∃ c w, s = c :: w ∧ 'A' ≤ c ∧ c ≤ 'Z' ∧ ∀ d ∈ w, NameChar d
  | .templateIdentifier s => ∃ c w, s = '\'' :: c :: w ∧ 'A' ≤ c ∧ c ≤ 'Z' ∧ ∀ d ∈ w, NameChar d
  | .specialIdentifier s => ∃ w, s = '_' :: w ∧ ∀ d ∈ w, NameChar d
  | .stringLiteral s => ∃ body, s = '"' :: body ++ ['"'] ∧ StringBody body
  | .comment _ => False
  | .typeName _ => False
  | .whitespace => False
  | _ => True

/-- `Covers doc ts`: `doc` is the concatenation, in order, of the texts of the tokens `ts`,
whitespace, comments, and one arbitrary non-token character per `Unknown`. -/
inductive Covers : Str → List Token → Prop
  | nil : Covers [] []
  | white (c : Char) (s : Str) (ts : List Token) : AsciiWhite c → Covers s ts → Covers (c :: s) ts
  | closed (body s : Str) (ts : List Token) : NoClose body → Covers s ts →
      Covers (str! "(*" ++ (body ++ (str! "*)" ++ s))) ts
  | unclosed (body : Str) : NoClose body → Covers (str! "(*" ++ body) []
  | unknown (c : Char) (s : Str) (ts : List Token) :
      ¬ AsciiWhite c → ¬ NameChar c → c ∉ punctuation → Covers s ts →
      Covers (c :: s) (.unknown :: ts)
  | token (t : Token) (s : Str) (ts : List Token) : t ≠ .unknown → Covers s ts →
      Covers (t.text ++ s) (t :: ts)

/-- `CoversAny U doc ts`: like `Covers`, for arbitrary documents.  Non-ASCII whitespace (according to the
Unicode tables `U`) is layout too; after a string literal, as many further characters are lost as it has more bytes
than characters (or all that are left). -/
inductive CoversAny (U : CharClass) : Str → List Token → Prop
  | nil : CoversAny U [] []
  | white (c : Char) (s : Str) (ts : List Token) :
      AsciiWhite c ∨ (128 ≤ c.toNat ∧ U.white c = true) → CoversAny U s ts → CoversAny U (c :: s) ts
  | closed (body s : Str) (ts : List Token) : NoClose body → CoversAny U s ts →
      CoversAny U (str! "(*" ++ (body ++ (str! "*)" ++ s))) ts
  | unclosed (body : Str) : NoClose body → CoversAny U (str! "(*" ++ body) []
  | unknown (c : Char) (s : Str) (ts : List Token) :
      ¬ NameChar c → (c ∈ punctuation → c = '-') → CoversAny U s ts →
      CoversAny U (c :: s) (.unknown :: ts)
  | token (t : Token) (s : Str) (ts : List Token) : t ≠ .unknown → (∀ m, t ≠ .stringLiteral m) →
      Ascii t.text → CoversAny U s ts → CoversAny U (t.text ++ s) (t :: ts)
  | string (m lost s : Str) (ts : List Token) :
      m.length + lost.length = bytes m ∨ (s = [] ∧ m.length + lost.length ≤ bytes m) →
      CoversAny U s ts → CoversAny U (m ++ (lost ++ s)) (.stringLiteral m :: ts)

/-- The reserved words of Scilla with the tokens they stand for (written down independently of the
lexer's own table). -/
def keywordSpellings : List (Str × Token) :=
  [(str! "scilla_version", .scillaVersion),
   (str! "import", .import_),
   (str! "as", .as_),
   (str! "library", .library),
   (str! "contract", .contract),
   (str! "type", .type),
   (str! "of", .of_),
   (str! "let", .let_),
   (str! "in", .in_),
   (str! "fun", .fun_),
   (str! "tfun", .tfun),
   (str! "forall", .forall_),
   (str! "match", .match_),
   (str! "with", .with_),
   (str! "end", .end_),
   (str! "builtin", .builtin),
   (str! "field", .field),
   (str! "transition", .transition),
   (str! "procedure", .procedure),
   (str! "accept", .accept),
   (str! "send", .send),
   (str! "event", .event),
   (str! "throw", .throw),
   (str! "delete", .delete),
   (str! "exists", .exists_),
   (str! "Map", .map),
   (str! "Emp", .emp),
   (str! "Event", .eventType)]

/-- The reserved words, src/parser/lexer.rs 7-34. -/
def keywords : List Str := keywordSpellings.map (·.1)

/-- The reported positions of a token after the segments `pre` (0-based):
exact byte offset, number of newline characters seen *as whitespace*, and as column the distance
from the last such newline (or the start of the document) to the start of the **previous**
segment. -/
structure ReportedAt (pre : List Seg) (p : Pos) : Prop where
  position : p.position = bytes (segText pre)
  line : p.line = pre.count (.white '\n')
  column :
    (pre = [] ∧ p.column = 0) ∨
    (∃ init last, pre = init ++ [last] ∧ last ≠ .white '\n' ∧
      ((Seg.white '\n' ∉ init ∧ p.column = bytes (segText init)) ∨
       (∃ u v, init = u ++ .white '\n' :: v ∧ Seg.white '\n' ∉ v ∧
          p.column = bytes (segText (.white '\n' :: v))))) ∨
    (∃ init, pre = init ++ [.white '\n'] ∧ p.column = 0)

/-! ### Printing -/

/-- Layout: whitespace characters and closed comments, in any number and order. -/
inductive Layout : Str → Prop
  | nil : Layout []
  | white (c : Char) (s : Str) : AsciiWhite c → Layout s → Layout (c :: s)
  | comment (body s : Str) : NoClose body → Layout s →
      Layout (str! "(*" ++ (body ++ (str! "*)" ++ s)))

/-- Body of a string literal in which every backslash starts an escape. -/
inductive StrictBody : Str → Prop
  | nil : StrictBody []
  | char (c : Char) (s : Str) : c ≠ '"' → c ≠ '\\' → StrictBody s → StrictBody (c :: s)
  | escape (c : Char) (s : Str) : c ≠ '\n' → StrictBody s → StrictBody ('\\' :: c :: s)

/-- Tokens whose spelling determines them: well formed, names are not reserved words and do not
start with `ByStr`, string literals are ASCII with proper escapes. -/
def Printable : Token → Prop
  | .unknown => False
  | .identifier s => WellFormed (.identifier s) ∧ s ∉ keywords
  | .customIdentifier s => WellFormed (.customIdentifier s) ∧ s ∉ keywords ∧ ¬ str! "ByStr" <+: s
  | .specialIdentifier s => WellFormed (.specialIdentifier s) ∧ s ≠ ['_']
  | .stringLiteral s => ∃ body, s = '"' :: body ++ ['"'] ∧ StrictBody body ∧ Ascii body
  | t => WellFormed t

/-- Tokens that end in a name character (and `_`): they must not be followed by another. -/
def Token.wordy : Token → Bool
  | .plus | .asterisk | .semicolon | .colon | .dot | .pipe | .openBracket | .closeBracket
  | .openParen | .closeParen | .openBrace | .closeBrace | .comma | .doubleArrow | .arrow
  | .equals | .ampersand | .leftArrow | .colonEquals | .at_ | .minus | .stringLiteral _ => false
  | _ => true

/-- `q` may be written directly after `t` without changing where `t` ends. -/
def Separated (t : Token) (q : Str) : Prop :=
  ∀ c, q.head? = some c → c.toNat < 128 ∧ (t.wordy = true → ¬ NameChar c) ∧
    (t = .equals → c ≠ '>') ∧ (t = .colon → c ≠ '=') ∧ (t = .openParen → c ≠ '*') ∧
    (t = .minus → c ≠ '>' ∧ ¬ Digit c)

/-- `Rendering ts s`: `s` is the sequence `ts` of printable tokens written with some layout before,
between and after them; between two tokens the layout may be empty where they do not merge. -/
inductive Rendering : List Token → Str → Prop
  | nil (lay : Str) : Layout lay → Rendering [] lay
  | cons (lay : Str) (t : Token) (s : Str) (ts : List Token) : Layout lay → Printable t →
      Separated t s → Rendering ts s → Rendering (t :: ts) (lay ++ (t.text ++ s))

end Verif
