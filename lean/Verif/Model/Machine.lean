import Verif.Model.Contract
/-
The lexer with machine integers.  `Model/Lexer` counts with natural numbers; the program counts with `usize`.  Here every
addition and subtraction the lexer performs on its counters goes through an `Arith`, which may fail (a debug build panics
on overflow, `overflow-checks = true`) or wrap around (a release build).  The lexer is the only part of the crate that
calculates with positions: the grammar only copies the ends of tokens (`@L`, `@R`), the emitter only clones them.
Not counted here: the byte index kept by `std::str::CharIndices` and the length arithmetic inside `str` slicing and the
regex crate, which are bounded by the length of a string that is in memory.
-/
namespace Verif

/-- `usize` addition and subtraction; `none` is a panic (lexer.rs 239, 260, 272 and the ends of tokens) -/
structure Arith where
  add : Nat → Nat → Option Nat
  sub : Nat → Nat → Option Nat

/-- Arithmetic with overflow checks on numbers below `W` (`cargo build`, `cargo test`; semantics of `+` and `-` at lexer.rs 239, 260, 272) -/
def Arith.checked (W : Nat) : Arith where
  add a b := if a + b < W then some (a + b) else none
  sub a b := if b ≤ a then some (a - b) else none

/-- Wrapping arithmetic modulo `W` (`cargo build --release`; semantics of `+` and `-` at lexer.rs 239, 260, 272) -/
def Arith.wrapping (W : Nat) : Arith where
  add a b := some ((a + b) % W)
  sub a b := some ((a + (W - b % W)) % W)

/-- `SourcePosition::with_end`, lexer.rs 237-242: `ret.column += new_position - ret.position`. -/
def Pos.withEndM (m : Arith) (p : Pos) (newPosition : Nat) : Option Pos :=
  (m.sub newPosition p.position).bind fun d =>
    (m.add p.column d).map fun column => { position := newPosition, line := p.line, column := column }

/-- What is left of the characters `r` after a token of `len` bytes whose first character has been read: for a token of
one byte (or none, `Unknown`) nothing is read, otherwise `self.chars.nth(end - start - 2)`, which reads one character
more than its argument (lexer.rs 272-300 with `chars.next()`, 402-603 with `KEYWORD.len() - 2`, 622-706). -/
def restM (m : Arith) (start stop len : Nat) (r : Str) : Option Str :=
  if len > 1 then
    (m.sub stop start).bind fun d => (m.sub d 2).map fun n => r.drop (n + 1)
  else some r

/-- One iteration of the `while` loop of `Lexer::next`, lexer.rs 251-721, on machine integers. -/
def lexStepM (m : Arith) (U : CharClass) (σ : LexState) : LexStep :=
  match σ.rest with
  | [] => .eof
  | ch :: r =>
    let start : Pos := { position := σ.offset, line := σ.line, column := σ.character }
    -- self.character += start - self.last_position;  (line 260)
    match (m.sub σ.offset σ.lastPosition).bind (m.add σ.character) with
    | none => .panic
    | some character =>
      match scan U ch r with
      | .white =>
        if ch == '\n' then
          -- self.character = 0; self.line += 1;  (lines 270-273)
          match m.add σ.line 1 with
          | none => .panic
          | some line =>
            .skip { rest := r, offset := σ.offset + ch.utf8Size, line := line, character := 0, lastPosition := σ.offset }
        else
          .skip { rest := r, offset := σ.offset + ch.utf8Size, line := σ.line, character := character,
                  lastPosition := σ.offset }
      | .comment extra =>
        .skip { rest := r.drop extra, offset := σ.offset + bytes (ch :: r.take extra), line := σ.line,
                character := character, lastPosition := σ.offset }
      | .token t len _ =>
        match m.add σ.offset len with
        | none => .panic
        | some stop =>
          match restM m σ.offset stop len r with
          | none => .panic
          | some rest =>
            match start.withEndM m stop with
            | none => .panic
            | some stop =>
              .yield { start := start, tok := t, stop := stop }
                { rest := rest, offset := σ.offset + bytes (ch :: r.take (r.length - rest.length)), line := σ.line,
                  character := character, lastPosition := σ.offset }
      | .panic => .panic

/-- `Lexer::next` on machine integers (lexer.rs 250-724) -/
def nextFuelM (m : Arith) (U : CharClass) : Nat → LexState → NextResult
  | 0, _ => .none
  | n + 1, σ =>
    match lexStepM m U σ with
    | .eof => .none
    | .skip σ' => nextFuelM m U n σ'
    | .yield t σ' => .item t σ'
    | .panic => .panic

/-- `Lexer::next` on machine integers with fuel that is enough, lexer.rs 250-724 -/
def lexNextM (m : Arith) (U : CharClass) (σ : LexState) : NextResult := nextFuelM m U (σ.rest.length + 1) σ

/-- Draining the lexer on machine integers, lexer.rs 250-724; `none` = panic -/
def drainFuelM (m : Arith) (U : CharClass) : Nat → LexState → Option (List STok)
  | 0, _ => some []
  | n + 1, σ =>
    match lexNextM m U σ with
    | .none => some []
    | .item t σ' => (drainFuelM m U n σ').map (t :: ·)
    | .panic => none

/-- All tokens of a document, or `none` if the lexer panics, on machine integers. -/
def lexDocM (m : Arith) (U : CharClass) (doc : Str) : Option (List STok) :=
  drainFuelM m U (doc.length + 1) (LexState.init doc)

/-- The tokens obtained by calling `next` until it returns `None` or panics, lexer.rs 250-724 -/
def yieldedFuelM (m : Arith) (U : CharClass) : Nat → LexState → List STok
  | 0, _ => []
  | n + 1, σ =>
    match lexNextM m U σ with
    | .item t σ' => t :: yieldedFuelM m U n σ'
    | _ => []

/-- The tokens before the end or a panic, on machine integers (lexer.rs 250-724) -/
def yieldedM (m : Arith) (U : CharClass) (doc : Str) : List STok :=
  yieldedFuelM m U (doc.length + 1) (LexState.init doc)

open Classical in
/-- `Contract::from_str`, contract.rs 48-54, with the lexer on machine integers (see `fromStr`). -/
noncomputable def fromStrM (m : Arith) (env : Env) (doc : Str) : ParseResult :=
  match lexDocM m env.chars doc with
  | none =>
    if Viable (yieldedM m env.chars doc) then .panic
    else .err (.parseError (env.parseErrorText (requested [] (yieldedM m env.chars doc))))
  | some toks =>
    match parseProgram toks with
    | none => .err (.parseError (env.parseErrorText (requested [] toks)))
    | some p =>
      match emitProgram env.dbg p with
      | .ok c => .ok c
      | .err e => .err (.parseError e)
      | .panic => .panic

/-- `SourcePosition::is_valid`, lexer.rs 220-222, where `usize` has the values below `W`. -/
def Pos.isValid (W : Nat) (p : Pos) : Bool := p.position < (W - 1) / 2

/-- `SourcePosition::start_position`, lexer.rs 223-229. -/
def Pos.startPosition : Pos := { position := 0, line := 0, column := 0 }

/-- `SourcePosition::invalid_position`, lexer.rs 230-236. -/
def Pos.invalidPosition (W : Nat) : Pos := { position := W - 1, line := W - 1, column := W - 1 }

end Verif
