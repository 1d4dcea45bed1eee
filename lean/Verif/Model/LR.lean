import Verif.Model.Lexer
/-
The driver of the generated parser: `lalrpop_util::state_machine::Parser::parse` (lalrpop-util 0.20), which
`ProgramParser::new().parse(&mut errors, lexer)` runs (src/contract.rs 48-51), for arbitrary tables.  The tables
themselves are generated by LALRPOP at build time and are not part of the repository; what is assumed of them is
`LR.Valid` (Spec/LRTables).

Terminals, nonterminals, states and productions are numbers, as in the generated code.  Production 0 is the start
production `__Program = Program`.
-/
namespace Verif.LR

/-- a grammar symbol: terminal or nonterminal (lalrpop-util, `ParserDefinition`; grammar symbols of parser.lalrpop) -/
inductive Sym where
  | t (a : Nat)
  | n (x : Nat)
deriving DecidableEq, Repr

/-- a production of parser.lalrpop (LALRPOP numbers them) -/
structure Rule where
  lhs : Nat
  rhs : List Sym
deriving DecidableEq, Repr

/-- an entry of `__ACTION`: positive, negative or zero (generated from parser.lalrpop, build.rs) -/
inductive Act where
  | shift (s : Nat)
  | reduce (p : Nat)
  | error
deriving DecidableEq, Repr

/-- the generated tables `__ACTION` (with a terminal), `__EOF_ACTION` (`none`) and the function `__goto` (generated from parser.lalrpop by build.rs) -/
structure Tables where
  action : Nat → Option Nat → Act
  goto : Nat → Nat → Nat

/-- how the parser ends with a lookahead: the token is shifted; the input is accepted; no action (the stack is
kept, the list of expected tokens is computed from it); the start production was reduced but a token is left
(`ExtraToken`); an index was out of bounds (a panic of the generated code; lalrpop_util::state_machine, run from contract.rs 50) -/
inductive Verdict where
  | shifted (st : List Nat)
  | accept
  | error (st : List Nat)
  | extra
  | stuck
deriving DecidableEq

/-- one round of that loop: an outcome, or a new stack (lalrpop_util::state_machine, run from contract.rs 50) -/
inductive Step where
  | more (st : List Nat)
  | done (v : Verdict)
deriving DecidableEq

/-- `Parser::reduce` on the stack of states (top first): as many states are popped as the right side has symbols,
then the state given by `__goto` is pushed (lalrpop_util::state_machine, run from contract.rs 50) -/
def popGoto (G : List Rule) (T : Tables) (p : Nat) (st : List Nat) : Step :=
  match G[p]? with
  | none => .done .stuck
  | some r =>
    match st.drop r.rhs.length with
    | [] => .done .stuck
    | s :: σ => .more (T.goto s r.lhs :: s :: σ)

/-- One round of the inner loop of `Parser::parse` (a token as lookahead) or of `Parser::parse_eof` (`none`; lalrpop_util::state_machine, run from contract.rs 50) -/
def step (G : List Rule) (T : Tables) (la : Option Nat) (st : List Nat) : Step :=
  match st with
  | [] => .done .stuck
  | s :: σ =>
    match T.action s la, la with
    | .shift s', some _ => .done (.shifted (s' :: s :: σ))
    | .shift _, none => .done (.error st)
    | .reduce 0, some _ => .done .extra
    | .reduce 0, none => .done .accept
    | .reduce (p + 1), _ => popGoto G T (p + 1) st
    | .error, _ => .done (.error st)

/-- The inner loop: `n` rounds until the lookahead is dealt with (lalrpop_util::state_machine, run from contract.rs 50) -/
inductive Settles (G : List Rule) (T : Tables) (la : Option Nat) : Nat → List Nat → Verdict → Prop
  | done {st v} : step G T la st = .done v → Settles G T la 1 st v
  | more {n st st' v} : step G T la st = .more st' → Settles G T la n st' v → Settles G T la (n + 1) st v

/-- `__accepts`: the simulation by which the list of expected tokens is computed (lalrpop_util::state_machine; the list is in the text of error.rs 29) -/
def Accepts (G : List Rule) (T : Tables) (st : List Nat) (a : Nat) : Prop :=
  ∃ n v, Settles G T (some a) n st v ∧ (v = .extra ∨ ∃ st', v = .shifted st')

/-- how `Parser::parse` ends (`Result<_, ParseError>`, contract.rs 50, or a panic of the lexer) -/
inductive Outcome where
  | accept (toks : List STok)
  /-- `UnrecognizedToken`: the tokens before, the token, the stack -/
  | badToken (got : List STok) (t : STok) (st : List Nat)
  /-- `UnrecognizedEof`: all tokens, the stack -/
  | badEof (got : List STok) (st : List Nat)
  | extraToken (t : STok)
  | lexerPanic
  | stuck

/-- The outer loop: `Parser::parse` pulls the tokens one at a time out of the lexer; `code` is
`__token_to_integer`, `got` the tokens shifted so far and `st` the stack.  The number counts the rounds of the inner
loops. -/
inductive Drive (G : List Rule) (T : Tables) (code : Token → Option Nat) (U : CharClass) :
    Nat → LexState → List Nat → List STok → Outcome → Prop
  | accept {n σ st got} : lexNext U σ = .none → Settles G T none n st .accept → Drive G T code U n σ st got (.accept got)
  | badEof {n σ st got st'} : lexNext U σ = .none → Settles G T none n st (.error st') →
      Drive G T code U n σ st got (.badEof got st')
  | stuckEof {n σ st got} : lexNext U σ = .none → Settles G T none n st .stuck → Drive G T code U n σ st got .stuck
  | lexerPanic {σ st got} : lexNext U σ = .panic → Drive G T code U 0 σ st got .lexerPanic
  | noTerminal {σ σ' st got t} : lexNext U σ = .item t σ' → code t.tok = none →
      Drive G T code U 0 σ st got (.badToken got t st)
  | shift {n m σ σ' st st' got t a o} : lexNext U σ = .item t σ' → code t.tok = some a →
      Settles G T (some a) n st (.shifted st') → Drive G T code U m σ' st' (got ++ [t]) o →
      Drive G T code U (n + m) σ st got o
  | badToken {n σ σ' st st' got t a} : lexNext U σ = .item t σ' → code t.tok = some a →
      Settles G T (some a) n st (.error st') → Drive G T code U n σ st got (.badToken got t st')
  | extra {n σ σ' st got t a} : lexNext U σ = .item t σ' → code t.tok = some a →
      Settles G T (some a) n st .extra → Drive G T code U n σ st got (.extraToken t)
  | stuckTok {n σ σ' st got t a} : lexNext U σ = .item t σ' → code t.tok = some a →
      Settles G T (some a) n st .stuck → Drive G T code U n σ st got .stuck

end Verif.LR
