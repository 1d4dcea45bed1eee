# Formal model of rs-scilla-parser in Lean 4

`lean/Verif/Model/*` is the model of the code; `lean/Verif/Spec/*` are small specifications written
independently of it (grammar, lexemes, direct reading of an interface, walks of a tree, edits of a text);
`lean/Verif/Proofs/*` are lemmas; `lean/Verif/Props/*` are the claims: the theorems named `Cnn_…` belong to
property `Cnn` of `properties.jsonl`, and `MANIFEST.json` lists them.  `AXIOMS.md` gives the axioms of each.

## What is modelled

| code | model module | how |
|---|---|---|
| `src/parser/lexer.rs` | `Model/Token`, `Model/Lexer` | complete: every branch of `Lexer::next`, positions, the eight regular expressions as hand-written leftmost-first matchers, `From<Token> for String`, slicing panics. `char::is_alphanumeric`, `is_numeric`, `is_whitespace` are fixed on ASCII and an arbitrary parameter (`CharClass`) on other characters, so the theorems hold for every version of the Unicode tables. |
| `src/parser/parser.lalrpop` | `Spec/Grammar` (one constructor of `Derives` per production, with its action), `Model/Parser` (executable recursive descent) | every production, of every nonterminal; the actions build the trees of `nodes.rs` with positions. |
| `src/ast/nodes.rs` | `Model/Ast` | all node types; `Display` of identifiers. |
| `src/ast/visitor.rs`, `src/ast/converting.rs` | `Model/Visitor` | all `visit` functions, generic in the state and the callbacks of the visitor. |
| `src/simplified_representation/*` | `Model/Emitter` | all callbacks reachable from `emit`, the stack machine, `SrType` and its conversion. The recursion (callbacks call `visit`) is tied by a fuel that is bounded by the size of the node; the bound is proved sufficient. |
| `src/type.rs`, `src/field.rs`, `src/transition.rs` | `Model/Types` | data types, `Display` of types and fields. |
| `src/contract.rs`, `src/error.rs` | `Model/Contract` | `from_str` (with the lexer run lazily by the parser), `parse(path)` over an arbitrary file system, the `Display` of errors. |
| the driver of the generated parser (`lalrpop_util::state_machine::Parser::parse`, lalrpop-util 0.20) | `Model/LR`, `Model/LRParse` | the loops of the shift-reduce parser over arbitrary tables, the simulation that gives the expected tokens, `from_str` on top of it. The grammar it runs on is `Spec/Desugar` (the grammar file with `X*`, `X+`, `X?` expanded as LALRPOP does). `Model/LRValues`: the same with the stack of values and the actions of the reductions. |
| `#[derive(Debug)]` of `SourcePosition`, `Token`, `Type`, `Field`, `Transition`, `Contract`, `SrType`, `StackObject`; the `{:?}` of `lalrpop_util::ParseError` | `Model/Debug` | texts of errors and of results. |
| `{:#?}` of node types, types and contracts (`core::fmt`: `DebugStruct`, `DebugTuple`, `DebugList`, `PadAdapter`) | `Model/Pretty` | the indented texts. |
| `Field::new`, `Transition::new`, `new_without_param`, `push`, `Default`s, `ParserError` (`src/field.rs`, `src/transition.rs`, `src/parser/mod.rs`) | `Model/Helpers` | the small public helpers around the results. |
| `SrEmitter` as a public value (`Default`, `emit`, `visit` with it, in any state) | `Model/EmitterUse` | an emitter that is reused, or in a state a caller made. |
| `usize` arithmetic of the lexer | `Model/Machine` | the lexer with checked or wrapping additions and subtractions. |
| `#[derive(Debug, PartialOrd, PartialEq)]` of all node types of `src/ast/nodes.rs` and of `SourcePosition` | `Model/TreeText` | string order is by code points, which is the order of UTF-8 bytes `str` uses (C70). |

Representation: strings are `List Char`; byte offsets are computed from UTF-8 lengths (justified by C70); `usize` positions are
`Nat` (that nothing wraps or overflows is C73, with the lexer on machine integers in `Model/Machine`); the number in `ByStrX` is bounded by
2^64 explicitly, as `usize::from_str`.  A Rust panic is an explicit outcome, never conflated with an error.

## What is not modelled

* The numbers in the LR(1) tables that LALRPOP generates at build time (they are not in the repository): C60, C61, C63 and C82
  hold for all tables that fit the grammar (`LR.Valid`), and tables that do are given (`Spec/LRData`, `Spec/LRTypeData`).  The memory and stack
  use of the program (deeply nested input overflowing the native stack).
* Of the error texts: which terminals are missing from the list of expected terminals in a syntax error (all that are in
  it are right, C61; it is complete at unrecognised characters, C61, otherwise it may be incomplete, depending on the
  reductions the tables make before the error is seen) and
  which characters outside ASCII `{:?}` escapes.  Both are parameters of `Env.real`.  All other theorems hold for an
  arbitrary `Env`, i.e. whatever the texts of syntax errors (as a function of the tokens requested) and the `{:?}` of
  stack objects are.
* `Deref`/`DerefMut` of the list types and the derived `Clone` (values are immutable here).

## Trusted base

* Lean's kernel (4.33.0) and the axioms `propext`, `Classical.choice`, `Quot.sound` (per theorem in `AXIOMS.md`;
  regenerate with `tools/axioms.py`).  No further axioms, no compiled evaluation: concrete cases are checked
  with `decide`, `decide +kernel` or `rfl`.
* The transliteration; each definition cites file and lines.  It is validated against the project's own
  tests: `lean/Verif/Conformance/*` (generated by `tools/conformance.py`) has the kernel evaluate the model on all 431
  `check_ok`/`check_err` cases of `tests/parser_tests.rs` and on 16 of the 19 contracts of `tests/contracts`, with the
  `Contract` values expected in `tests/full_contract_tests.rs` where there are any.  (On the three largest contracts the
  kernel gives the expected results too, but needs up to 11 GB of memory, so these are not part of the build.)  These are tests of the model, not properties.
* LALRPOP generates tables that fit the grammar it is given (`LR.Valid`: they come from conflict-free sets of LR(1)
  items; larger lookahead sets and default reductions are allowed), attaches to each production the action written in
  the file, and expands `X?`, `X*`, `X+`, `@L`, `@R` as documented (`Spec/Desugar`, `Model/LRValues`, `markPos` in
  `Spec/RustValue`).  That the value on the stack at the end is then the tree of the derivation is proved (C62, C63).
  That a parser driven by such tables accepts exactly the language, ends,
  stops at the first token that no program continues with, asks for a token only after shifting the one before, and so
  computes `fromStr` of `Model/Contract`, is proved (C60).  The executable parser `parseProgram` is not trusted: it is
  proved to accept exactly the grammar (C15, C16, C59).
* The `regex` crate implements leftmost-first semantics as in `Spec/Regex` (C69 proves the model's matchers equal to
  it on the expressions of the source); `std` string functions behave as documented.
* `std::fs::read_to_string` (an arbitrary function from paths to results).

## Properties: what is modelled and how it is proved

| property | statement over | proof |
|---|---|---|
| C01–C05, C08, C09, C12, C13 | one call of the lexer, all runs | a single description of one call as a decomposition of the remaining text (`Proofs/LexBasic`), then induction over the run (`Proofs/LexRun`) |
| C06, C07 | `Covers`, an independent list of the reserved words | as above, ASCII case by `Proofs/LexAscii` |
| C10, C11 | `Rendering`, `Layout` (`Spec/Lexical`) | first token of `text t ++ s` is `t` (`Proofs/LexPrint`); induction on the rendering |
| C14–C17, C44 | `Derives` (`Spec/Grammar`) | soundness by induction on the fuel of the parser, completeness by induction on derivations with FOLLOW conditions (`Proofs/Parser*`); C17 is a corollary |
| C18, C26, C42, C46 | documents with equal tokens; `Boundary`, `Layout` (`Spec/Editing`) | trees with erased positions (`Proofs/Strip*`); a boundary stays a boundary if what follows is replaced (`Proofs/LexTail`) |
| C19 | `Spec/Spans`: a phrase for each node | mutual induction over derivations |
| C20–C22 | token scans written independently (`Spec/Scan`) | induction over derivations |
| C23–C25, C27–C29, C41 | `Spec/Interface`: a direct reading of the interface from the tree, with a verdict for each type | exact effect of each callback on the stack (`Proofs/EmitSem`), then the reading decides (`Proofs/EmitRead`, `EmitContract`, `EmitEvent`) |
| C30, C31 | `SrType`, `Ty` | structural induction |
| C32, C33, C40, C45 | `Spec/Print`: spelling of types and interfaces as tokens | `Proofs/PrintDerives`, `Proofs/DisplayInj`, then C10 and C16 |
| C34–C38 | `Spec/Walk`, `Spec/WalkEvents`: the calls a visitor should get, as a list | mutual structural induction over trees for an arbitrary visitor (`Proofs/Walk*`) |
| C39 | file system as a function | unfolding of `parse`; the content is in `from_str` |
| C43 | `Viable` prefixes | induction over the tokens requested |
| C47 | `Spec/Print`, `Spec/Editing` | C42's boundary lemma, then the grammar's star |
| C48 | `Spec/Lexical`: covers with lost characters | the lexer run of any document decomposed into pieces (`Props/NonAscii`) |
| C49, C50, C51 | `Spec/Rename`, `Spec/RenameResult`: names in tokens, trees and results replaced by a function | derivations are closed under renaming and under change of texts (`Proofs/RenameDerives`); a logical relation between emitter runs on a state and on its renamed state, for two arbitrary `Debug` renderings (`Proofs/RenameEmit`); C50 by renaming one name that is not in the document, and for the reserved words by an invariant on the strings of the emitter's state (`Proofs/Written`) together with C80 |
| C52 | no new model; `Contract.Writable`/`Named` of `Spec/Print` | a Hoare logic for the emitter monad (`Proofs/Legal`: all identifiers and types on the stack are legal), by induction over derivations (`Proofs/LegalTree`, `Proofs/LegalContract`); legality of name tokens in every document without `Unknown` tokens (`Props/Legal`); the converse is C40 |
| C53 | `Model/Debug`: `{:?}` of positions, tokens, stack objects, `lalrpop_util::ParseError`; `Env.real` | the first non-viable token exists and is what the parser has requested last (`Props/ErrorText`); a reader of messages is proved to recover the position; a Hoare-style property of the emitter monad gives the six emitter texts (`Proofs/EmitText`) |
| C54 | `Model/Debug`: `{:?}` of `Type`, `Field`, `Contract` | unique decodability of escaped strings, numbers and variants, by induction over types (`Proofs/DebugInj`) |
| C55 | `Spec/LineEnds` | a step of the lexer commutes with the change of line ends (`Proofs/LexCrlf`), states are simulated; then C49 with the change of line ends as renaming, which leaves legal names (C52) alone |
| C56 | `Model/Lexer`, two classifications | one lexer step reads the classification only at characters of the text; strong induction on the text |
| C57 | `Spec/Editing`, `Spec/Relocate` | runs of the lexer as traces of states; a step that stays before the boundary does not see the text after it (`Proofs/LexTail`); simulation between a lexer started at a boundary and one started at the beginning (`Proofs/LexLocal`) |
| C58 | `Spec/EmitLog` (the emitter with a record of its callbacks; erasure proved), `Spec/WalkEvents` | a relation between runs without and with a record (`Rel`), compositional over the monad, children and the emitter's own visits (`Proofs/EmitCount`); at most five nodes per token by induction on derivations (`Proofs/NodeCount`) |
| C59 | `Spec/GrammarFile` (the productions of parser.lalrpop as data, written by tools/grammar_lean.py, which reads the file), `Spec/Generates` (the language of such a grammar) | both inclusions between `Gen` and `Derives`, one generated lemma per production (`Proofs/GrammarFile`, written by tools/grammar_proofs.py); parser = `Derives` is C44 |
| C60 | `Model/LR`, `Model/LRParse` (driver), `Spec/LRTables` (language of a grammar, `Valid`: tables that fit it), `Spec/Desugar`, `Spec/LRCheck`, `Spec/LRData` (366 states, written by tools/lr_tables.py) | completeness: simulation of a derivation by the automaton (`Proofs/LRComplete`); soundness, correct prefixes and the linear bound: invariant on the stack with a potential (`Proofs/LRSound`); the driver with the lazy lexer (`Proofs/LRDrive`); desugaring preserves the language (`Proofs/Desugar`); a verified checker of tables, evaluated by the kernel (`Proofs/LRCheck`, `Proofs/LRTables`) |
| C61 | the same | the stack at an error satisfies the invariant of C60, and the simulation is a run of the driver from it; completeness directly after a shift by the simulation of derivations (`Props/Expected`) |
| C62 | `Spec/Actions` (the actions of parser.lalrpop as expressions, written by tools/actions_lean.py, which reads the file), `Spec/RustValue` (Rust values and the meaning of the expressions), `Spec/NodeValues` (the trees as Rust values), `Spec/Builds` (what the actions compute for a sequence of symbols; mentions neither `Derives` nor the parser) | one generated lemma per action, `act_…`: evaluating it gives the tree of `Derives`; both inclusions by induction (tools/action_proofs.py); `rv` is injective |
| C63 | `Model/LRValues` (driver with the stack of `(start, value, end)`, the actions of the expanded productions), `Spec/Actions`, `Spec/RustValue` | invariant: the entries of the stack are values that `Builds` gives for the tokens of their symbols (`Proofs/LRValues`); simulation in both directions with the driver of C60 |
| C64 | `Spec/Pile` (a direct reading of programs with a pile of names, types and declarations; no visitor, no modes, no fuel) | simulation of the visitor-free semantics of the emitter (`Proofs/Pile`); agreement with `Spec/Interface` where that gives a meaning |
| C65 | `Spec/Depth` (height of syntax trees via `kids`; emission with at most k nested visits) | the fuel bound of `Model/Emitter` is at most `2h + 8` (mutual induction on types, `Proofs/Depth`), and more fuel never matters; towers of parentheses for the other half, by induction |
| C66 | `Spec/NodeTypes` (generated from `src/ast/nodes.rs` by `tools/node_types.py`): the declared types as data, and which structured values belong to them | the model's trees map one to one onto the values of the declared types: both directions by mutual induction, generated in `Proofs/NodeTypes` |
| C67 | `Model/TreeText`: `derive(Debug)` on structured values | unique decodability, by induction over the declared types (`Proofs/TreeText`) |
| C68 | `Model/TreeText`: `derive(PartialOrd)` on structured values (variant index first, then the fields in order) | lexicographic orders compose; induction over the declared types (`Proofs/TreeOrder`) |
| C69 | `Spec/Regex`: syntax, language and leftmost-first matching of regular expressions; the texts of the source are parsed in the kernel | adequacy of the matcher by induction over expressions; each hand-written matcher of `Model/Lexer` against its expression, the string literal by induction over the text with the backtracking order (`Proofs/Regex`) |
| C70 | `Spec/Utf8`: encoding table, well-formed sequences (Unicode table 3-7), `is_char_boundary`, order of bytes | arithmetic on code points and induction over texts (`Proofs/Utf8`) |
| C71 | `Spec/Unparse`: one printer per node type; `Spec/Essential`: which tokens are left out, by neighbours only, without the grammar | induction over derivations, twice (`Proofs/UnparseDerives`: the print-out derives the stripped value; `Proofs/EssentialDerives`: what is kept of a derivable word, in every context it can stand in), both generated by tools/gen_unparse.py and gen_essential.py from the grammar; then unambiguity (C17) |
| C72 | `Model/EmitterUse`: `emit` and `visit` on an emitter in any state | the simulation of C64 from any contract; the reading lemmas of C24 from any state; an invariant of all 46 callbacks lifted to the visitor by induction over trees (`Proofs/Reuse`) |
| C73 | `Model/Machine`: the lexer with an arbitrary `usize` addition and subtraction (checked or wrapping) | invariant of the counters (column ≤ last position ≤ offset, offset + bytes left = length); machine steps equal ideal steps; a document of spaces for the sharpness |
| C74 | `CutFrom`: the part of the document between two byte offsets (`Props/Spelling`) | slices at byte offsets are unique; printable tokens are recovered from their texts (C10), other string literals by their first character |
| C75 | `Model/Helpers`: constructors and `push` of the result types, `ParserError` | induction over lists; the numbers are read from the end of the text |
| C76 | `Derives`, `rv`, `Builds`; `Spec/Occurs` (parts of a value) | one context per category, checked by derivations (generated by `tools/gen_frames.py`); the variants an action can write are read off the text of the actions |
| C77 | `Spec/Meaning.lean` describes on tokens what a type, a parameter list, a field list, transitions and a program say (inductive relations `Says`, `ParamsSay`, `FieldsSay`, `ComponentsSay`, `ProgramSays`; imports, libraries, bodies, initial values only as "some phrase of that kind"). Both directions against the grammar and `readProgram`: rule induction on `Says`, induction on derivations (`Derives.says`). Converse for documents: induction on derivations shows that in `Ordinary` tokens nothing is misread, then C24. |
| C78 | From C77: `ProgramSays` is taken apart at the place of the edit and put together again with the replacement. Where to cut is found by keywords: induction on derivations shows in which phrases `transition`, `contract`, `field` occur (`FieldTame`, `ContractTame`: inside types and expressions they only occur in address types, where `field` follows `contract` or a comma and `contract` is followed by `field` or `end`). |
| C79 | `Model/Pretty`: `{:#?}` of structured values, with the `PadAdapter` of `core::fmt`; `Spec/OneLine`: the rule that removes the layout | by induction over values: the text of a value is flat when it starts after an opening bracket or a blank, and removing the layout commutes with indentation; strings contain no line break when escaped (`Proofs/Pretty`); injectivity from C67 and C54 |
| C80 | `Spec/Sources`: `FromTokens` | induction over the derivations of the grammar file with its actions (`Builds`, C62): an expression built from values that come from tokens gives such a value, for expressions of a form (`Ex.ok`) that is evaluated for all actions; marks at solid symbols lie at tokens (`Proofs/Sources`); pieces of the document from C05, bounds from C73 |
| C81 | `Spec/Parts`: `Outline` (token lists, no trees), `Ok`, `SameFace`, `stub` | trees with parts at their tokens (`OutlineAt`, `Proofs/Parts`), both ways through C59; uniqueness: number the tokens, the tree is unique (C17) and records where each part ends; interface: parse the tokens without positions, where equal tokens give equal values, then C25 and C18; the text of the stub lexes back (C10, C46) |
| C82 | `Model/LR`, `Model/LRValues` (the driver), `Spec/Desugar`: `desugaredFor` (one grammar per public nonterminal; they differ in the start production), `Spec/LRTables`: `Valid` | the invariants of C60 and C63 for an arbitrary start symbol, with outcomes described on terminals (`Proofs/LRAny`), `Proofs/LRValues`; the grammars are tidy (evaluated for all 59); tables for `ScillaType` as a witness (`Spec/LRTypeData`, checked by the kernel). That tables exist for the other start symbols is not proved (for `Program` and `ScillaType` it is); the theorems hold for whatever tables fit |
| C83 | `Spec/Cut`: `Contract.Begins`, `Outline.Begins` (prefix orders), `NoEscape` | `Proofs/LexCut`: the tokens of the part are the tokens of the whole up to some place, followed by leftovers with `Unknown`, or a final `=`, or tokens without `)` and `=`; `Proofs/Cut`: two outlines that begin alike agree up to the last complete declaration, and initial values and bodies do not matter for the contract; emission through C81 and C50 |
| C84 | `Spec/Blocks`: `Open.read` (a reader with a stack of the closing tokens expected, independent of the grammar), `Blocked`, `delimiters` | `Proofs/Blocks`: induction on the derivation, for every nonterminal the text is read from any stack back to the same stack; reading backwards is deterministic on stacks (`reads_unique`), so one more delimiter cannot fit; documents through C57 |
| C85 | the grammar and the lexer; `Boundary`, `Layout` as in C47 | no other production than that of programs has `scilla_version` (induction on the derivation); with C43 the error is decided at the second `scilla_version`, with `lex_append` (C47) for two documents |
| C86 | `Spec/Size`: weighted size of results and of token sequences | the reading of C64 takes from and puts on a pile: every step adds at most the weight of the tokens it reads (induction on the derivation, parameters and the contract name counted twice); token texts are disjoint parts of the document |
| C87 | `Spec/Neighbours`: the table, written by `tools/neighbours.py` (not trusted); `Gen` of C59 | first and last terminals and neighbours of any grammar without empty productions (`Proofs/Neighbours`): closure gives that nothing is missing, computation in rounds that everything is justified, with all nonterminals productive and reachable; then the kernel compares the numbers with the table |
| C88 | `Spec/Keywords`: the lists of keywords, what a word is | automata read off the grammar by `tools/keywords.py` (not trusted) and checked by the kernel against all productions: three finite automata with the pairs of states that have no common continuation, two machines with a counter (`let … in`; the parameters of the contract), and the blocks of C84; induction over derivations (`Proofs/Keywords`) |
| C89 | `Spec/Keywords`: the lists `needed` and `idle` | six more automata and a machine that counts the blocks `with … end` around a comma, written by `tools/keywords.py` (not trusted) and checked by the kernel; two sentences, one with one terminal more, lead to states without a common continuation, or to different counts; C84 for `transition`, `procedure`, `end`; C87 for repeated keywords |
| C90 | `Spec/Keywords`: the list `interchangeable` | the shift-reduce parser behind the same tokens is in one state, and for 188 pairs no state has an action for both; three more automata from `tools/keywords.py`, checked by the kernel; C87's table where two keywords have no neighbour in common; C84 for `transition`, `procedure`, `end`, `with`; the counter of C88 for `in`; a table of all 27 × 27 pairs computed by the kernel shows that nothing is left out |
| C91 | `Spec/Keywords`: the lists `indispensable` and `dispensable` | keywords by C89, brackets by C84; `:` `&` `@` and strings: the shift-reduce parser behind the same tokens is in one state, and the tables (`tools/keywords.py`, checked by the kernel) leave no action for what follows; `=>` by a counter; the second list by documents the kernel evaluates |
| C92 | `Spec/Keywords`: the list `repeatable` | C87's table for tokens that cannot follow themselves, C84 for brackets, `end`, `transition`, `procedure`; the list by documents the kernel evaluates |
| C93 | `Spec/Mistaken`: the lists `unmistakable`, `mistakable` | C90's automata and four more, C84 for brackets and `end`, the counters for `in` and `=>`, one for the depth of blocks (`,` against `field`); the second list by documents the kernel evaluates |

## Findings (properties one would expect that are false of the code)

Refuted by theorems with a concrete document (names ending in `_witness`) and, where possible, by a general
theorem: lexing may panic on non-ASCII text (C03); a string literal with a non-ASCII character swallows the
characters after it (C06); reserved words are not reserved in front of non-ASCII letters at the end (C07);
`0xabc` and `ByStrFoo` are split silently (C08); an unterminated comment is no error (C11); lines and columns are
wrong after comments and strings (C12, C13); two spans in the tree are wrong (C19); a leading comma is accepted
(C22); namespaces of types are dropped, or panic in transition parameters (C28); fields of type `Event` get the contract
name as type (C28); errors in address types are swallowed (C28); unsupported types panic instead of giving an error
(C27); `ByStr020` is a type different from `ByStr20` but displayed alike (C31, C33); the display of maps and of
address types with fields is not valid Scilla (C32); the `Exit` of address types is called although `Enter` failed,
errors in argument lists lose their texts (C36); the position stack is unbalanced (C37); visiting a library
let-definition panics (C38); a quote escaped by `\\"` is part of the literal only as long as another quote follows, so
cutting a document short can add a field to its contract (C83).

## Wrong programs

`seeded/LOG.jsonl`: for each mutant of the model (run in a scratch copy) the edit, the claim that becomes false, the
theorems that no longer prove, and what was tightened.
