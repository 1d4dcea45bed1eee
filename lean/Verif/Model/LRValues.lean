import Verif.Model.LRParse
import Verif.Spec.Desugar
import Verif.Spec.Actions
import Verif.Spec.NodeValues
/-
The driver of Model/LR with the stack of symbols: `lalrpop_util::state_machine::Parser` keeps, next to the stack of
states, a stack of triples (start, value, end); a reduction takes as many triples as the right side has symbols and
pushes the value of its action.  At the end the value is what `ProgramParser::parse` returns.
-/
namespace Verif.LR

/-- `(L, Symbol, L)`: an element of the stack of symbols (lalrpop_util::state_machine, run from contract.rs 50) -/
structure Entry where
  start : Pos
  val : RV
  stop : Pos

/-! ### The actions of the productions -/

/-- where the argument for a symbol of the file comes from: the stack; the stack, as `Some`; it is `None` or an empty
vector because the symbol `X?` or `X*` was left out of the production (how LALRPOP calls the actions of parser.lalrpop) -/
inductive Slot where
  | sym
  | some_
  | none_
  | nil
deriving DecidableEq

/-- `alts` (Spec/Desugar) with the origin of the argument.  (lalrpop 0.20, `normalize/macro_expand`: `X? = X => Some(<>) |
() => None` and `X* = () => vec![] | X+ => <>`, both inlined.) -/
def altsWith : FSym → List (List Sym × Slot)
  | .tok k => match code k with | some a => [([.t a], .sym)] | none => []
  | .non x => [([.n (num x)], .sym)]
  | .opt x => [([], .none_), ([.n (num x)], .some_)]
  | .star x => [([], .nil), ([.n (numPlus x)], .sym)]
  | .plus x => [([.n (numPlus x)], .sym)]

/-- the expansions of a right side of parser.lalrpop with optional and repeated parts, with the slots of each -/
def expandWith : List FSym → List (List Sym × List Slot)
  | [] => [([], [])]
  | f :: α => (altsWith f).flatMap fun a => (expandWith α).map fun b => (a.1 ++ b.1, a.2 :: b.2)

/-- what a production of `desugared` was made of: the start production; a production of the file; `X+ = X`;
`X+ = X+ X` (parser.lalrpop 91-1832) -/
inductive Origin where
  | start
  | prod (i : Nat) (slots : List Slot)
  | first
  | next
deriving DecidableEq

/-- `desugared` with the origins (parser.lalrpop 91-1832) -/
def annotated : List (Rule × Origin) :=
  (⟨numStart, [.n (num .Program)]⟩, .start) ::
  (grammarFile.zipIdx.flatMap fun q => (expandWith q.1.rhs).map fun β => (⟨num q.1.lhs, β.1⟩, .prod q.2 β.2)) ++
  repeated.flatMap fun x =>
    [(⟨numPlus x, [.n (num x)]⟩, .first), (⟨numPlus x, [.n (numPlus x), .n (num x)]⟩, .next)]

/-- the arguments of an action (the generated `__reduceN` functions) -/
def fill : List Slot → List Entry → Option (List (Span × RV))
  | [], [] => some []
  | .sym :: sl, e :: es => (fill sl es).map ((some (e.start, e.stop), e.val) :: ·)
  | .some_ :: sl, e :: es => (fill sl es).map ((some (e.start, e.stop), .some e.val) :: ·)
  | .none_ :: sl, es => (fill sl es).map ((none, .none) :: ·)
  | .nil :: sl, es => (fill sl es).map ((none, .vec []) :: ·)
  | _, _ => none

/-- the value of a reduction, from the symbols in the order of the input (the actions of parser.lalrpop 91-1832) -/
def Origin.value : Origin → List Entry → Option RV
  | .start, [e] => some e.val
  | .prod i slots, es => (fileActions[i]?).bind fun a => (fill slots es).bind a.value
  | .first, [e] => some (.vec [e.val])
  | .next, [e, f] => match e.val with | .vec l => some (.vec (l ++ [f.val])) | _ => none
  | _, _ => none

/-- `__reduce`: the value of the production with this number (generated from parser.lalrpop) -/
def reduceValue (p : Nat) (es : List Entry) : Option RV := (annotated[p]?).bind fun ro => ro.2.value es

/-! ### The driver -/

/-- `Verdict` (Model/LR) with the value (lalrpop_util::state_machine, run from contract.rs 50) -/
inductive VVerdict where
  | shifted (st : List Nat) (vs : List Entry)
  | accept (r : RV)
  | error (st : List Nat)
  | extra
  | stuck

/-- `Step` (Model/LR) with the values: lalrpop_util::state_machine, run from contract.rs 50 -/
inductive VStep where
  | more (st : List Nat) (vs : List Entry)
  | done (v : VVerdict)

/-- `Parser::reduce`: pop, compute, push; the span of the value is from the start of the first to the end of the last (lalrpop_util::state_machine, run from contract.rs 50) -/
def vPopGoto (G : List Rule) (T : Tables) (p : Nat) (st : List Nat) (vs : List Entry) : VStep :=
  match G[p]? with
  | none => .done .stuck
  | some r =>
    let es := (vs.take r.rhs.length).reverse
    match es.head?, es.getLast?, reduceValue p es, popGoto G T p st with
    | some e, some f, some v, .more st' => .more st' (⟨e.start, v, f.stop⟩ :: vs.drop r.rhs.length)
    | _, _, _, _ => .done .stuck

/-- one round, with the values (lalrpop_util::state_machine, run from contract.rs 50) -/
def vstep (G : List Rule) (T : Tables) (la : Option Nat) (st : List Nat) (vs : List Entry) : VStep :=
  match st with
  | [] => .done .stuck
  | s :: σ =>
    match T.action s la, la with
    | .shift s', some _ => .done (.shifted (s' :: s :: σ) vs)
    | .shift _, none => .done (.error st)
    | .reduce 0, some _ => .done .extra
    | .reduce 0, none => match vs with | e :: _ => .done (.accept e.val) | [] => .done .stuck
    | .reduce (p + 1), _ => vPopGoto G T (p + 1) st vs
    | .error, _ => .done (.error st)

/-- `Settles` (Model/LR) with the values: lalrpop_util::state_machine, run from contract.rs 50 -/
inductive VSettles (G : List Rule) (T : Tables) (la : Option Nat) : Nat → List Nat → List Entry → VVerdict → Prop
  | done {st vs v} : vstep G T la st vs = .done v → VSettles G T la 1 st vs v
  | more {n st vs st' vs' v} : vstep G T la st vs = .more st' vs' → VSettles G T la n st' vs' v →
      VSettles G T la (n + 1) st vs v

/-- `Outcome` (Model/LR) with the value (contract.rs 50) -/
inductive VOutcome where
  | accept (r : RV)
  | badToken (got : List STok) (t : STok) (st : List Nat)
  | badEof (got : List STok) (st : List Nat)
  | extraToken (t : STok)
  | lexerPanic
  | stuck

/-- the triple that is pushed for a token: its value is its text (`extern { enum Token }` of parser.lalrpop) -/
def STok.entry (t : STok) : Entry := ⟨t.start, .str t.tok.text, t.stop⟩

/-- The outer loop (`Drive` of Model/LR) with the values (lalrpop_util::state_machine, run from contract.rs 50) -/
inductive VDrive (G : List Rule) (T : Tables) (code : Token → Option Nat) (U : CharClass) :
    Nat → LexState → List Nat → List Entry → List STok → VOutcome → Prop
  | accept {n σ st vs got r} : lexNext U σ = .none → VSettles G T none n st vs (.accept r) →
      VDrive G T code U n σ st vs got (.accept r)
  | badEof {n σ st vs got st'} : lexNext U σ = .none → VSettles G T none n st vs (.error st') →
      VDrive G T code U n σ st vs got (.badEof got st')
  | stuckEof {n σ st vs got} : lexNext U σ = .none → VSettles G T none n st vs .stuck →
      VDrive G T code U n σ st vs got .stuck
  | lexerPanic {σ st vs got} : lexNext U σ = .panic → VDrive G T code U 0 σ st vs got .lexerPanic
  | noTerminal {σ σ' st vs got t} : lexNext U σ = .item t σ' → code t.tok = none →
      VDrive G T code U 0 σ st vs got (.badToken got t st)
  | shift {n m σ σ' st vs st' vs' got t a o} : lexNext U σ = .item t σ' → code t.tok = some a →
      VSettles G T (some a) n st vs (.shifted st' vs') →
      VDrive G T code U m σ' st' (STok.entry t :: vs') (got ++ [t]) o → VDrive G T code U (n + m) σ st vs got o
  | badToken {n σ σ' st vs st' got t a} : lexNext U σ = .item t σ' → code t.tok = some a →
      VSettles G T (some a) n st vs (.error st') → VDrive G T code U n σ st vs got (.badToken got t st')
  | extra {n σ σ' st vs got t a} : lexNext U σ = .item t σ' → code t.tok = some a →
      VSettles G T (some a) n st vs .extra → VDrive G T code U n σ st vs got (.extraToken t)
  | stuckTok {n σ σ' st vs got t a} : lexNext U σ = .item t σ' → code t.tok = some a →
      VSettles G T (some a) n st vs .stuck → VDrive G T code U n σ st vs got .stuck

/-- `Contract::from_str`, src/contract.rs 47-53: the tree that is emitted is the value on the stack when the parser
accepts -/
inductive FromStrV (G : List Rule) (T : Tables) (code : Token → Option Nat) (names : List (Nat × Str)) (chars : CharClass)
    (esc : Char → Str) (doc : Str) : ParseResult → Prop
  | ok {n p c} : VDrive G T code chars n (.init doc) [0] [] [] (.accept (NodeProgram.rv p)) →
      emitProgram (StackObj.debug esc) p = .ok c → FromStrV G T code names chars esc doc (.ok c)
  | emitErr {n p e} : VDrive G T code chars n (.init doc) [0] [] [] (.accept (NodeProgram.rv p)) →
      emitProgram (StackObj.debug esc) p = .err e → FromStrV G T code names chars esc doc (.err (.parseError e))
  | emitPanic {n p} : VDrive G T code chars n (.init doc) [0] [] [] (.accept (NodeProgram.rv p)) →
      emitProgram (StackObj.debug esc) p = .panic → FromStrV G T code names chars esc doc .panic
  | badToken {n got t st} : VDrive G T code chars n (.init doc) [0] [] [] (.badToken got t st) →
      FromStrV G T code names chars esc doc
        (.err (.parseError ((SyntaxError.token t (expectedNames G T names st)).debug esc)))
  | badEof {n got st} : VDrive G T code chars n (.init doc) [0] [] [] (.badEof got st) →
      FromStrV G T code names chars esc doc
        (.err (.parseError ((SyntaxError.eof (stopOf got) (expectedNames G T names st)).debug esc)))
  | lexerPanic {n} : VDrive G T code chars n (.init doc) [0] [] [] .lexerPanic → FromStrV G T code names chars esc doc .panic
  | stuck {n} : VDrive G T code chars n (.init doc) [0] [] [] .stuck → FromStrV G T code names chars esc doc .panic
  | extra {n t msg} : VDrive G T code chars n (.init doc) [0] [] [] (.extraToken t) →
      FromStrV G T code names chars esc doc (.err (.parseError msg))

end Verif.LR
