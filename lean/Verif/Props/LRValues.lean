import Verif.Proofs.LRValues
import Verif.Props.LR
import Verif.Props.Actions
/-
C63: the generated LR parser with the values on its stack.
-/
namespace Verif

open LR

/-- The parser accepts a document with a value exactly if the lexer takes the document apart into tokens of which the
productions make a program and the actions compute that value. -/
theorem C63_value {T : Tables} {I : Items} (hV : Valid desugared T I) (chars : CharClass) (doc : Str) (r : RV) :
    (∃ n, VDrive desugared T code chars n (.init doc) [0] [] [] (.accept r)) ↔
      ∃ toks, lexDoc chars doc = some toks ∧ Builds [.non .Program] [(toks, r)] := by
  constructor
  · rintro ⟨n, h⟩
    obtain ⟨o, hd, hs⟩ := v_drive lrTidy' hV h vinv_start
    cases hs with
    | accept hb => exact ⟨_, ((C60_accepts hV chars doc _).1 ⟨n, hd⟩).1, hb⟩
  · rintro ⟨toks, hl, hb⟩
    obtain ⟨n, hd⟩ := (C60_accepts hV chars doc toks).2 ⟨hl, (C62_total .Program toks).2 ⟨r, hb⟩⟩
    obtain ⟨o', hd', hs⟩ := drive_v lrTidy' hV hd vinv_start
    cases hs with
    | accept hb' =>
      rw [C62_unique .Program toks _ _ hb hb']
      exact ⟨n, hd'⟩

/-- the value is the tree of the model -/
theorem C63_tree {T : Tables} {I : Items} (hV : Valid desugared T I) (chars : CharClass) (doc : Str) (p : NodeProgram) :
    (∃ n, VDrive desugared T code chars n (.init doc) [0] [] [] (.accept (NodeProgram.rv p))) ↔
      ∃ toks, lexDoc chars doc = some toks ∧ parseProgram toks = some p := by
  rw [C63_value hV]
  refine exists_congr fun toks => and_congr_right fun _ => ?_
  rw [C62_program]
  constructor
  · rintro ⟨q, hq, e⟩
    rw [hq, C62_faithful .program p q e]
  · intro h
    exact ⟨p, h, rfl⟩

/-- With its values the parser ends on every document, within the same number of rounds, and does not fail on the way: no
action meets a value it was not written for, no stack is too short. -/
theorem C63_ends {T : Tables} {I : Items} (hV : Valid desugared T I) (chars : CharClass) (doc : Str) :
    ∃ n o, VDrive desugared T code chars n (.init doc) [0] [] [] o ∧ n ≤ 12 * (yielded chars doc).length + 1 ∧
      o ≠ .stuck ∧ ∀ t, o ≠ .extraToken t := by
  obtain ⟨n, o, hd, hn, h1, h2⟩ := C60_ends hV chars doc
  obtain ⟨o', hd', hs⟩ := drive_v lrTidy' hV hd vinv_start
  refine ⟨n, o', hd', hn, ?_, ?_⟩
  · rintro rfl; cases hs; exact h1 rfl
  · rintro t rfl; cases hs; exact h2 t rfl

/-- `Contract::from_str` with the parser as it runs, values included: every document has exactly one result, that of
`fromStr`. -/
theorem C63_from_str {T : Tables} {I : Items} (hV : Valid desugared T I) (names : List (Nat × Str)) :
    ∃ expected : List Token → List Str, ∀ (chars : CharClass) (esc : Char → Str) (doc : Str) (r : ParseResult),
      FromStrV desugared T code names chars esc doc r ↔ r = fromStr (Env.real chars esc expected) doc := by
  obtain ⟨expected, hexp⟩ := C60_from_str hV names
  refine ⟨expected, fun chars esc doc r => ?_⟩
  rw [← hexp]
  have acc : ∀ {n : Nat} {p : NodeProgram}, VDrive desugared T code chars n (.init doc) [0] [] [] (.accept (NodeProgram.rv p)) →
      ∃ toks, Drive desugared T code chars n (.init doc) [0] [] (.accept toks) ∧ Derives .program toks p := by
    intro n p h
    obtain ⟨o, hd, hs⟩ := v_drive lrTidy' hV h vinv_start
    cases hs with
    | accept hb =>
      obtain ⟨v, hv, e⟩ := (derives_iff_builds .Program _ _).1 hb
      have : p = v := C62_faithful .program p v e
      subst this
      exact ⟨_, hd, hv⟩
  have acc' : ∀ {n : Nat} {toks : List STok} {p : NodeProgram}, Drive desugared T code chars n (.init doc) [0] [] (.accept toks) →
      Derives .program toks p → VDrive desugared T code chars n (.init doc) [0] [] [] (.accept (NodeProgram.rv p)) := by
    intro n toks p h hp
    obtain ⟨o', hd, hs⟩ := drive_v lrTidy' hV h vinv_start
    cases hs with
    | accept hb =>
      have hb' := (derives_iff_builds .Program toks _).2 ⟨p, hp, rfl⟩
      rw [C62_unique .Program toks _ _ hb hb'] at hd
      exact hd
  constructor
  · intro h
    cases h with
    | ok h he => obtain ⟨toks, h1, h2⟩ := acc h; exact .ok h1 h2 he
    | emitErr h he => obtain ⟨toks, h1, h2⟩ := acc h; exact .emitErr h1 h2 he
    | emitPanic h he => obtain ⟨toks, h1, h2⟩ := acc h; exact .emitPanic h1 h2 he
    | badToken h => obtain ⟨o, hd, hs⟩ := v_drive lrTidy' hV h vinv_start; cases hs; exact .badToken hd
    | badEof h => obtain ⟨o, hd, hs⟩ := v_drive lrTidy' hV h vinv_start; cases hs; exact .badEof hd
    | lexerPanic h => obtain ⟨o, hd, hs⟩ := v_drive lrTidy' hV h vinv_start; cases hs; exact .lexerPanic hd
    | stuck h => obtain ⟨o, hd, hs⟩ := v_drive lrTidy' hV h vinv_start; cases hs; exact .stuck hd
    | extra h => obtain ⟨o, hd, hs⟩ := v_drive lrTidy' hV h vinv_start; cases hs; exact .extra hd
  · intro h
    cases h with
    | ok h hp he => exact .ok (acc' h hp) he
    | emitErr h hp he => exact .emitErr (acc' h hp) he
    | emitPanic h hp he => exact .emitPanic (acc' h hp) he
    | badToken h => obtain ⟨o, hd, hs⟩ := drive_v lrTidy' hV h vinv_start; cases hs; exact .badToken hd
    | badEof h => obtain ⟨o, hd, hs⟩ := drive_v lrTidy' hV h vinv_start; cases hs; exact .badEof hd
    | lexerPanic h => obtain ⟨o, hd, hs⟩ := drive_v lrTidy' hV h vinv_start; cases hs; exact .lexerPanic hd
    | stuck h => obtain ⟨o, hd, hs⟩ := drive_v lrTidy' hV h vinv_start; cases hs; exact .stuck hd
    | extra h => obtain ⟨o, hd, hs⟩ := drive_v lrTidy' hV h vinv_start; cases hs; exact .extra hd

/-- the symbol on the stack before the reduction of `throw` -/
def witnessEntries : List Entry :=
  [⟨⟨0, 1, 1⟩, .str (str! "throw"), ⟨5, 1, 6⟩⟩]

set_option maxRecDepth 100000 in
/-- Concrete cases: the demonstration contract is accepted with its tree, and the reduction of `throw` without argument
puts `None` in the place of the argument. -/
theorem C63_witness : (∃ n p, VDrive desugared demoTables code demoU n (.init demoDoc) [0] [] [] (.accept (NodeProgram.rv p)) ∧
      parseProgram demoToks = some p) ∧
    ∃ p, desugared[p]? = some ⟨num .Statement, [.t ((code .throw).getD 0)]⟩ ∧
      reduceValue p witnessEntries = some (NodeStatement.rv (.throw none)) := by
  constructor
  · obtain ⟨p, hp⟩ := demo_parses
    obtain ⟨n, h⟩ := (C63_tree C60_tables demoU demoDoc p).2 ⟨_, demo_lexes, hp⟩
    exact ⟨n, p, h, hp⟩
  · exact ⟨120, by decide +kernel, rfl⟩

end Verif
