import Verif.Model.LR
import Verif.Model.Debug
import Verif.Spec.Grammar
/-
`Contract::from_str` with the generated parser as it runs: the LR driver pulls tokens out of the lexer, an error is
turned into text, an accepted program is emitted.
-/
namespace Verif.LR

open Classical in
/-- `__expected_tokens_from_states`: the names of the terminals that the simulation accepts (generated code; the list is in the text of error.rs 29) -/
noncomputable def expectedNames (G : List Rule) (T : Tables) (names : List (Nat × Str)) (st : List Nat) : List Str :=
  (names.filter fun p => decide (Accepts G T st p.1)).map (·.2)

/-- `Contract::from_str`, src/contract.rs 47-53.  The value the parser returns for accepted tokens is the one the actions
of the productions compute, which is what `Derives` specifies. -/
inductive FromStr (G : List Rule) (T : Tables) (code : Token → Option Nat) (names : List (Nat × Str)) (chars : CharClass)
    (esc : Char → Str) (doc : Str) : ParseResult → Prop
  | ok {n toks p c} : Drive G T code chars n (.init doc) [0] [] (.accept toks) → Derives .program toks p →
      emitProgram (StackObj.debug esc) p = .ok c → FromStr G T code names chars esc doc (.ok c)
  | emitErr {n toks p e} : Drive G T code chars n (.init doc) [0] [] (.accept toks) → Derives .program toks p →
      emitProgram (StackObj.debug esc) p = .err e → FromStr G T code names chars esc doc (.err (.parseError e))
  | emitPanic {n toks p} : Drive G T code chars n (.init doc) [0] [] (.accept toks) → Derives .program toks p →
      emitProgram (StackObj.debug esc) p = .panic → FromStr G T code names chars esc doc .panic
  | badToken {n got t st} : Drive G T code chars n (.init doc) [0] [] (.badToken got t st) →
      FromStr G T code names chars esc doc
        (.err (.parseError ((SyntaxError.token t (expectedNames G T names st)).debug esc)))
  | badEof {n got st} : Drive G T code chars n (.init doc) [0] [] (.badEof got st) →
      FromStr G T code names chars esc doc
        (.err (.parseError ((SyntaxError.eof (stopOf got) (expectedNames G T names st)).debug esc)))
  | lexerPanic {n} : Drive G T code chars n (.init doc) [0] [] .lexerPanic → FromStr G T code names chars esc doc .panic
  | stuck {n} : Drive G T code chars n (.init doc) [0] [] .stuck → FromStr G T code names chars esc doc .panic
  /-- `ExtraToken` -/
  | extra {n t msg} : Drive G T code chars n (.init doc) [0] [] (.extraToken t) →
      FromStr G T code names chars esc doc (.err (.parseError msg))

end Verif.LR
