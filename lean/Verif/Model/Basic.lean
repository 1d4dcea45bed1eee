/-
Basic vocabulary of the model: strings, source positions, outcomes.
-/
namespace Verif

/-- Rust `&str` / `String`, as the list of its Unicode scalar values (as in `document: &str`, lexer.rs 190, and the `String` fields of nodes.rs) -/
abbrev Str := List Char

/-- Number of bytes of the UTF-8 encoding of a string (Rust `str::len`; used e.g. at lexer.rs 601; `char::len_utf8` at lexer.rs 279) -/
def bytes : Str → Nat
  | [] => 0
  | c :: s => c.utf8Size + bytes s

/-- `SourcePosition`, src/parser/lexer.rs 212-217.  `usize` is modelled by `Nat`
(documents are shorter than 2^63 bytes). -/
structure Pos where
  position : Nat
  line : Nat
  column : Nat
deriving DecidableEq, Repr, Inhabited

/-- `SourcePosition::with_end`, src/parser/lexer.rs 237-242. -/
def Pos.withEnd (p : Pos) (newPosition : Nat) : Pos :=
  { position := newPosition, line := p.line, column := p.column + (newPosition - p.position) }

/-- Result of a Rust computation of type `Result<α, String>` that may also panic (the result type of visitor.rs 10, emitter.rs 76) -/
inductive Outcome (α : Type) where
  | ok (a : α)
  | err (msg : Str)
  | panic
deriving DecidableEq, Repr

namespace Outcome

/-- Sequencing (Rust `?`): errors and panics abort (e.g. emitter.rs 77) -/
def bind {α β : Type} (x : Outcome α) (f : α → Outcome β) : Outcome β :=
  match x with
  | .ok a => f a
  | .err m => .err m
  | .panic => .panic

/-- `Result::map`, as in lexer.rs 259 -/
def map {α β : Type} (f : α → β) (x : Outcome α) : Outcome β :=
  match x with
  | .ok a => .ok (f a)
  | .err m => .err m
  | .panic => .panic

/-- `Result::is_ok`; used by statements only, not in the code -/
def isOk {α : Type} : Outcome α → Bool
  | .ok _ => true
  | _ => false

@[simp] theorem bind_ok {α β} (a : α) (f : α → Outcome β) : (Outcome.ok a).bind f = f a := rfl
@[simp] theorem bind_err {α β} (m : Str) (f : α → Outcome β) : (Outcome.err m).bind f = .err m := rfl
@[simp] theorem bind_panic {α β} (f : α → Outcome β) : (Outcome.panic : Outcome α).bind f = .panic := rfl
@[simp] theorem map_ok {α β} (a : α) (f : α → β) : (Outcome.ok a).map f = .ok (f a) := rfl
@[simp] theorem map_err {α β} (m : Str) (f : α → β) : (Outcome.err m).map f = .err m := rfl
@[simp] theorem map_panic {α β} (f : α → β) : (Outcome.panic : Outcome α).map f = .panic := rfl

end Outcome

end Verif
