import Verif.Model.Parser
import Verif.Model.Lexer
import Verif.Model.Emitter
/-
The public entry points: src/contract.rs, src/error.rs.
-/
namespace Verif

/-- Parameters of the model: Unicode classification of non-ASCII characters, the `Debug` rendering
of emitter stack objects, and the text of the LALRPOP parse error (`format!("{:?}", value)`,
error.rs 22-31) as a function of the tokens the parser has asked for. -/
structure Env where
  chars : CharClass
  dbg : StackObj → Str
  parseErrorText : List STok → Str

/-- `enum Error`, error.rs 7-20; an I/O error is an opaque text. -/
inductive Error where
  | parseError (msg : Str)
  | astVisitError (msg : Str)
  | ioError (msg : Str)
  | fromUtf8Error
deriving DecidableEq, Repr

/-- `Result<Contract, Error>`, or a panic (contract.rs 48, 81) -/
inductive ParseResult where
  | ok (c : Contract)
  | err (e : Error)
  | panic

/-- A token sequence that can be continued to one the parser accepts (not in the code; says when the generated parser (contract.rs 50) goes on reading) -/
def Viable (ts : List STok) : Prop := ∃ rest, (parseProgram (ts ++ rest)).isSome = true

open Classical in
/-- The tokens the parser has asked the lexer for when it reports a syntax error: up to and including the
first one that no program continues with, or all of them.  (An LR(1) parser shifts a token only if the
tokens so far can be continued, and asks for the next token only after shifting.) -/
noncomputable def requested : List STok → List STok → List STok
  | pre, [] => pre
  | pre, t :: r => if Viable (pre ++ [t]) then requested (pre ++ [t]) r else pre ++ [t]

open Classical in
/-- `Contract::from_str`, src/contract.rs 48-54.

The LR parser pulls tokens one at a time and stops at the first one it rejects.  So when the lexer
panics somewhere, the panic is reached only if the tokens before it can be continued; otherwise the result
is a syntax error.  The text of a syntax error depends on the tokens requested so far. -/
noncomputable def fromStr (env : Env) (doc : Str) : ParseResult :=
  match lexDoc env.chars doc with
  | none =>
    if Viable (yielded env.chars doc) then .panic
    else .err (.parseError (env.parseErrorText (requested [] (yielded env.chars doc))))
  | some toks =>
    match parseProgram toks with
    | none => .err (.parseError (env.parseErrorText (requested [] toks)))
    | some p =>
      match emitProgram env.dbg p with
      | .ok c => .ok c
      | .err e => .err (.parseError e)
      | .panic => .panic

/-- `#[derive(ThisError)]` on `Error`, error.rs 7-20: the `Display` of an error.  I/O errors are shown by their
own text (`transparent`); the text of a `FromUtf8Error`, which no code of the crate creates, is left empty. -/
def Error.display : Error → Str
  | .parseError msg => str! "Failed to parse the contract. " ++ msg
  | .astVisitError msg => str! "Failed to visit AST " ++ msg
  | .ioError msg => msg
  | .fromUtf8Error => []

/-- What the file system has at a path: bytes, or an I/O error (`std::fs::read`, below `read_to_string` of contract.rs 82) -/
inductive ReadResult where
  | bytes (bs : ByteArray)
  | failed (msg : Str)

/-- `std::fs::read_to_string`, used in src/contract.rs 82: the contents decoded as UTF-8 (Lean's decoder,
which like Rust's follows the Unicode standard); contents that are not UTF-8 are an I/O error with the
text of the standard library. -/
def readToString : ReadResult → Except Str Str
  | .failed msg => .error msg
  | .bytes bs =>
    match bs.utf8Decode? with
    | some cs => .ok cs.toList
    | none => .error (str! "stream did not contain valid UTF-8")

/-- `Contract::parse`, src/contract.rs 81-83; `read` is the file system. -/
noncomputable def parsePath {Path : Type} (env : Env) (read : Path → ReadResult) (path : Path) : ParseResult :=
  match readToString (read path) with
  | .error e => .err (.ioError e)
  | .ok doc => fromStr env doc

end Verif
