import Verif.Model.Token
/-
The lexer: src/parser/lexer.rs 185-724.

Characters outside ASCII are classified by an arbitrary parameter `CharClass`: the Unicode tables
behind `char::is_alphanumeric`, `is_numeric` and `is_whitespace` are not modelled, every theorem
holds for every classification.  On ASCII the three predicates are fixed to what Rust computes.
-/
namespace Verif

/-- Unicode tables for non-ASCII characters (consulted only for code points ≥ 128; std, used at lexer.rs 264, 266, 269, 390) -/
structure CharClass where
  alnum : Char → Bool
  numeric : Char → Bool
  white : Char → Bool

/-- `char::is_ascii`; not in the code, separates what is fixed from what is a parameter -/
def isAscii (c : Char) : Bool := c.toNat < 128

/-- `[0-9]` of the expressions at lexer.rs 606, 608 -/
def isDigit (c : Char) : Bool := 48 ≤ c.toNat && c.toNat ≤ 57          -- [0-9]
/-- `[a-z]` of the expressions at lexer.rs 614-620 -/
def isLower (c : Char) : Bool := 97 ≤ c.toNat && c.toNat ≤ 122         -- [a-z]
/-- `[A-Z]` of the expressions at lexer.rs 614-620 -/
def isUpper (c : Char) : Bool := 65 ≤ c.toNat && c.toNat ≤ 90          -- [A-Z]
/-- `[a-fA-F0-9]` (lexer.rs 610) -/
def isHex (c : Char) : Bool :=
  isDigit c || (97 ≤ c.toNat && c.toNat ≤ 102) || (65 ≤ c.toNat && c.toNat ≤ 70)
/-- `[a-zA-Z0-9_]` (lexer.rs 614-620) -/
def isWord (c : Char) : Bool := isLower c || isUpper c || isDigit c || c == '_'

namespace CharClass
variable (U : CharClass)

/-- `char::is_alphanumeric` (lexer.rs 264, 390) -/
def isAlnum (c : Char) : Bool :=
  if isAscii c then isLower c || isUpper c || isDigit c else U.alnum c
/-- `char::is_numeric` (lexer.rs 266) -/
def isNumeric (c : Char) : Bool :=
  if isAscii c then isDigit c else U.numeric c
/-- `char::is_whitespace`: on ASCII `' '` and `'\x09'..='\x0d'` (lexer.rs 269) -/
def isWhite (c : Char) : Bool :=
  if isAscii c then c == ' ' || (9 ≤ c.toNat && c.toNat ≤ 13) else U.white c
/-- `c.is_alphanumeric() || c == '_'` (lexer.rs 263-265, 390) -/
def isIdent (c : Char) : Bool := U.isAlnum c || c == '_'

end CharClass

/-! ### Byte slicing -/

/-- `&s[..n]`: the prefix of `n` bytes; `none` models the panic "byte index is not a char
boundary" / out of range (lexer.rs 396) -/
def sliceTo : Str → Nat → Option Str
  | _, 0 => some []
  | [], _ + 1 => none
  | c :: s, n + 1 =>
    if c.utf8Size ≤ n + 1 then (sliceTo s (n + 1 - c.utf8Size)).map (c :: ·) else none

/-! ### Regular expressions (lexer.rs lines 606-620), anchored at the start; each returns the match -/

/-- `^[+-]?[0-9]+`, lexer.rs line 608. -/
def matchInteger : Str → Option Str
  | c :: s =>
    if c == '+' || c == '-' then
      match s.takeWhile isDigit with
      | [] => none
      | ds => some (c :: ds)
    else
      match (c :: s).takeWhile isDigit with
      | [] => none
      | ds => some ds
  | [] => none

/-- the loop `([a-fA-F0-9][a-fA-F0-9])*` of lexer.rs line 610 -/
def hexPairs : Str → Str
  | a :: b :: s => if isHex a && isHex b then a :: b :: hexPairs s else []
  | _ => []

/-- `^0(x|X)([a-fA-F0-9][a-fA-F0-9])*`, lexer.rs lines 609-611. -/
def matchHex : Str → Option Str
  | '0' :: x :: s => if x == 'x' || x == 'X' then some ('0' :: x :: hexPairs s) else none
  | _ => none

/-- The part of `^"(?:\\.|[^"])*"` (lexer.rs lines 612-613) after the opening quote, with the regex
crate's leftmost-first (Perl) preference: another iteration is preferred to stopping, and inside
an iteration `\\.` (`.` is any character but newline) is preferred to `[^"]`. -/
def stringBody : Str → Option Str
  | [] => none
  | c :: s =>
    if c == '"' then some ['"']
    else if c == '\\' then
      match s with
      | d :: s' =>
        if d == '\n' then (stringBody (d :: s')).map (c :: ·)
        else
          match stringBody s' with
          | some m => some (c :: d :: m)
          | none => (stringBody (d :: s')).map (c :: ·)
      | [] => none
    else (stringBody s).map (c :: ·)

/-- `^"(?:\\.|[^"])*"`, lexer.rs lines 612-613. -/
def matchString : Str → Option Str
  | '"' :: s => (stringBody s).map ('"' :: ·)
  | _ => none

/-- `^[a-z][a-zA-Z0-9_]*`, lexer.rs lines 614-615. -/
def matchRegularId : Str → Option Str
  | c :: s => if isLower c then some (c :: s.takeWhile isWord) else none
  | [] => none

/-- `^['][A-Z][a-zA-Z0-9_]*`, lexer.rs lines 616-617. -/
def matchTemplateId : Str → Option Str
  | '\'' :: c :: s => if isUpper c then some ('\'' :: c :: s.takeWhile isWord) else none
  | _ => none

/-- `^[A-Z][a-zA-Z0-9_]*`, lexer.rs lines 618-619. -/
def matchCustomId : Str → Option Str
  | c :: s => if isUpper c then some (c :: s.takeWhile isWord) else none
  | [] => none

/-- `^[_][a-zA-Z0-9_]*`, lexer.rs line 620. -/
def matchSpecialId : Str → Option Str
  | '_' :: s => some ('_' :: s.takeWhile isWord)
  | _ => none

/-- `^ByStr[0-9]+`, lexer.rs line 606. -/
def matchByStrSize : Str → Option Str
  | 'B' :: 'y' :: 'S' :: 't' :: 'r' :: s =>
    match s.takeWhile isDigit with
    | [] => none
    | ds => some ('B' :: 'y' :: 'S' :: 't' :: 'r' :: ds)
  | _ => none

/-- `token_str.starts_with(KEYWORD_BYSTR)`, lexer.rs line 631. -/
def startsByStr : Str → Bool
  | 'B' :: 'y' :: 'S' :: 't' :: 'r' :: _ => true
  | _ => false

/-! ### One lexer step -/

/-- What the lexer does at a position whose text is `ch :: rest`, apart from positions. -/
inductive Scan where
  /-- whitespace character: skipped (lexer.rs line 269-274) -/
  | white
  /-- a comment: `extra` further characters after the `(` are consumed (lexer.rs lines 309-330) -/
  | comment (extra : Nat)
  /-- a token whose end is reported `len` bytes after its start, while `extra` further
  *characters* are consumed -/
  | token (t : Token) (len : Nat) (extra : Nat)
  /-- the slice `&token_str[..index]` is not on a char boundary (lexer.rs line 396) -/
  | panic
deriving DecidableEq, Repr

/-- Number of characters consumed by the comment loop, lexer.rs lines 315-323, given the text after `(*`:
up to and including the first `*)`, or everything. -/
def commentLen : Str → Nat
  | [] => 0
  | c :: s => if c == '*' && s.head? == some ')' then 2 else 1 + commentLen s

/-- A match `m` of one of the regexes: the end is `start + mat.end()` (bytes) but
`self.chars.nth(end - start - 2)` consumes `bytes m - 1` further characters
(lexer.rs lines 622-706; nothing when the match is a single byte). -/
def regexToken (t : Token) (m : Str) : Scan := .token t (bytes m) (bytes m - 1)

/-- The fallback of the keyword match, lexer.rs lines 604-709. -/
def scanOther (s : Str) : Scan :=
  match matchByStrSize s with
  | some m => regexToken (.byStrWithSize m) m
  | none =>
  if startsByStr s then .token .byStr 5 4 else
  match matchHex s with
  | some m => regexToken (.hexNumber m) m
  | none =>
  match matchInteger s with
  | some m => regexToken (.number m) m
  | none =>
  match matchString s with
  | some m => regexToken (.stringLiteral m) m
  | none =>
  match matchRegularId s with
  | some m => regexToken (.identifier m) m
  | none =>
  match matchTemplateId s with
  | some m => regexToken (.templateIdentifier m) m
  | none =>
  match matchCustomId s with
  | some m => regexToken (.customIdentifier m) m
  | none =>
  match matchSpecialId s with
  | some m => regexToken (.specialIdentifier m) m
  | none => .token .unknown 0 0

/-- Lookup in the keyword match, lexer.rs lines 402-603. -/
def lookupKeyword (s : Str) : Option Token := keywordTable.lookup s

/-- `index` of lexer.rs lines 387-394: the *character* index of the first character that is neither
alphanumeric nor `_`; 0 if there is none. -/
def wordIndex (U : CharClass) (s : Str) : Nat :=
  if s.all U.isIdent then 0 else (s.takeWhile U.isIdent).length

/-- `keyword_token`, lexer.rs lines 395-399; `none` = panic. -/
def keywordSlice (U : CharClass) (s : Str) : Option Str :=
  if wordIndex U s > 0 then sliceTo s (wordIndex U s) else some s

/-- The `_` arm of the character match, lexer.rs lines 385-714. -/
def scanWord (U : CharClass) (s : Str) : Scan :=
  match keywordSlice U s with
  | none => .panic
  | some kw =>
    match lookupKeyword kw with
    | some t => .token t (bytes kw) (bytes kw - 1)
    | none => scanOther s

/-- The single-character tokens, lexer.rs lines 333-384. -/
def singleTok : Char → Option Token
  | '+' => some .plus
  | '*' => some .asterisk
  | ';' => some .semicolon
  | ':' => some .colon
  | '.' => some .dot
  | '|' => some .pipe
  | '[' => some .openBracket
  | ']' => some .closeBracket
  | '(' => some .openParen
  | ')' => some .closeParen
  | '{' => some .openBrace
  | '}' => some .closeBrace
  | ',' => some .comma
  | '&' => some .ampersand
  | '@' => some .at_
  | '=' => some .equals
  | _ => none

/-- The decision cascade of `Lexer::next`, lexer.rs lines 258-718, on the text `ch :: r`. -/
def scan (U : CharClass) (ch : Char) (r : Str) : Scan :=
  if U.isWhite ch then .white
  else if ch == '=' && r.head? == some '>' then .token .doubleArrow 2 1
  else if ch == '-' && r.head? == some '>' then .token .arrow 2 1
  else if ch == '-' && !((r.head?.map U.isNumeric).getD false) then .token .minus 1 0
  else if ch == '<' && r.head? == some '-' then .token .leftArrow 2 1
  else if ch == ':' && r.head? == some '=' then .token .colonEquals 2 1
  else if ch == '_' && !((r.head?.map U.isIdent).getD false) then .token .underscore 1 0
  else if ch == '(' && r.head? == some '*' then .comment (1 + commentLen r.tail)
  else
    match singleTok ch with
    | some t => .token t 1 0
    | none => scanWord U (ch :: r)

/-- `struct Lexer`, lexer.rs lines 186-198: the not yet consumed characters, the byte offset of the first
of them, and the three counters. -/
structure LexState where
  rest : Str
  offset : Nat
  line : Nat
  character : Nat
  lastPosition : Nat
deriving DecidableEq, Repr

/-- `Lexer::new`, lexer.rs lines 201-209. -/
def LexState.init (doc : Str) : LexState :=
  { rest := doc, offset := 0, line := 0, character := 0, lastPosition := 0 }

/-- How an iteration of the loop lexer.rs 251-721 ends -/
inductive LexStep where
  | eof
  /-- whitespace or comment (`continue`) -/
  | skip (σ : LexState)
  | yield (t : STok) (σ : LexState)
  | panic
deriving DecidableEq, Repr

/-- State after consuming `ch` and `extra` more characters of `r`, with the counter updates of
lexer.rs lines 260-261 (`character += start - last_position; last_position = start`). -/
def LexState.advance (σ : LexState) (ch : Char) (r : Str) (extra : Nat) : LexState :=
  { rest := r.drop extra
    offset := σ.offset + bytes (ch :: r.take extra)
    line := σ.line
    character := σ.character + (σ.offset - σ.lastPosition)
    lastPosition := σ.offset }

/-- One iteration of the `while` loop of `Lexer::next`, lexer.rs lines 251-721. Note that the position of
the token is read *before* `character` is updated (lexer.rs lines 252-256 vs 260). -/
def lexStep (U : CharClass) (σ : LexState) : LexStep :=
  match σ.rest with
  | [] => .eof
  | ch :: r =>
    let start : Pos := { position := σ.offset, line := σ.line, column := σ.character }
    match scan U ch r with
    | .white =>
      let σ' := σ.advance ch r 0
      if ch == '\n' then .skip { σ' with character := 0, line := σ'.line + 1 } else .skip σ'
    | .comment extra => .skip (σ.advance ch r extra)
    | .token t len extra =>
      .yield { start := start, tok := t, stop := start.withEnd (σ.offset + len) }
        (σ.advance ch r extra)
    | .panic => .panic

/-- `Lexer::next`, lexer.rs lines 250-724. -/
inductive NextResult where
  | none
  | item (t : STok) (σ : LexState)
  | panic
deriving DecidableEq, Repr

/-- `Lexer::next` with fuel; `nextFuel U (length + 1)` never runs out (`Proofs/Lexer`; lexer.rs 250-724) -/
def nextFuel (U : CharClass) : Nat → LexState → NextResult
  | 0, _ => .none
  | n + 1, σ =>
    match lexStep U σ with
    | .eof => .none
    | .skip σ' => nextFuel U n σ'
    | .yield t σ' => .item t σ'
    | .panic => .panic

/-- `Lexer::next`, lexer.rs 250-724, with fuel that is enough -/
def lexNext (U : CharClass) (σ : LexState) : NextResult := nextFuel U (σ.rest.length + 1) σ

/-- Draining the lexer (`Lexer::new(doc).collect()`); `none` = panic. -/
def drainFuel (U : CharClass) : Nat → LexState → Option (List STok)
  | 0, _ => some []
  | n + 1, σ =>
    match lexNext U σ with
    | .none => some []
    | .item t σ' => (drainFuel U n σ').map (t :: ·)
    | .panic => none

/-- All tokens of a document, or `none` if the lexer panics. -/
def lexDoc (U : CharClass) (doc : Str) : Option (List STok) :=
  drainFuel U (doc.length + 1) (LexState.init doc)

/-- The tokens obtained by calling `next` until it returns `None` or panics (lexer.rs 250-724, repeated as by contract.rs 50) -/
def yieldedFuel (U : CharClass) : Nat → LexState → List STok
  | 0, _ => []
  | n + 1, σ =>
    match lexNext U σ with
    | .item t σ' => t :: yieldedFuel U n σ'
    | _ => []

/-- All tokens `Lexer::new(doc)` yields: of the whole document, or up to the point where it panics (lexer.rs 250-724, repeated as by contract.rs 50) -/
def yielded (U : CharClass) (doc : Str) : List STok := yieldedFuel U (doc.length + 1) (LexState.init doc)

end Verif
