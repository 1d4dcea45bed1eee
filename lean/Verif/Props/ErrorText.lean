import Verif.Model.Debug
import Verif.Proofs.EmitText
import Verif.Props.Errors
import Verif.Props.Types
/-
C53: what the text of an error of `from_str` says, and where it points.  The texts are those of the program
(`Env.real`, Model/Debug.lean); `esc` (how `{:?}` shows non-ASCII characters) and `expected` (the list of the
terminals that would have been possible) are arbitrary.
-/
namespace Verif

/-! ### A reader of error texts

Written for the outer form of the texts only: what an editor would do to mark the error. -/

/-- the rest of the text after a fixed beginning -/
def after? : Str → Str → Option Str
  | [], s => some s
  | _ :: _, [] => none
  | p :: ps, c :: s => if p = c then after? ps s else none

/-- a decimal number, and the rest of the text -/
def readNumber (s : Str) : Nat × Str := (digitsValue (s.takeWhile isDec), s.dropWhile isDec)

/-- a `SourcePosition { position: .., line: .., column: .. }` at the beginning -/
def readPos (s : Str) : Option Pos :=
  (after? (str! "SourcePosition { position: ") s).bind fun s =>
    (after? (str! ", line: ") (readNumber s).2).bind fun s' =>
      (after? (str! ", column: ") (readNumber s').2).map fun s'' =>
        ⟨(readNumber s).1, (readNumber s').1, (readNumber s'').1⟩

/-- where a text says the error is -/
inductive Where where
  /-- at the token that starts here -/
  | token (p : Pos)
  /-- the document ends too early; it ends here -/
  | end_ (p : Pos)
deriving DecidableEq, Repr

def readWhere (msg : Str) : Option Where :=
  match after? (str! "UnrecognizedToken { token: (") msg with
  | some s => (readPos s).map .token
  | none => (after? (str! "UnrecognizedEof { location: ") msg).bind fun s => (readPos s).map .end_

theorem after?_append (p s : Str) : after? p (p ++ s) = some s := by
  induction p with
  | nil => rfl
  | cons c p ih => simp [after?, ih]

theorem readNumber_append (n : Nat) (c : Char) (s : Str) (hc : isDec c = false) :
    readNumber (natDigits n ++ c :: s) = (n, c :: s) := by
  obtain ⟨_, h, hv⟩ := natDigits_value n
  unfold readNumber
  rw [List.takeWhile_append_of_pos h, List.dropWhile_append_of_pos h]
  simp [hc, hv]

theorem readPos_debug (p : Pos) (s : Str) : readPos (p.debug ++ s) = some p := by
  have e : p.debug ++ s = str! "SourcePosition { position: " ++ (natDigits p.position ++ (',' :: ([' ', 'l', 'i', 'n', 'e', ':', ' '] ++
      (natDigits p.line ++ (',' :: ([' ', 'c', 'o', 'l', 'u', 'm', 'n', ':', ' '] ++ (natDigits p.column ++ ' ' :: '}' :: s))))))) := by
    simp [Pos.debug]
  unfold readPos
  rw [e, after?_append]
  simp only [Option.bind_some]
  rw [readNumber_append _ _ _ rfl]
  simp only
  rw [show (',' :: ([' ', 'l', 'i', 'n', 'e', ':', ' '] ++ (natDigits p.line ++ (',' :: ([' ', 'c', 'o', 'l', 'u', 'm', 'n', ':', ' '] ++
      (natDigits p.column ++ ' ' :: '}' :: s)))))) = str! ", line: " ++ (natDigits p.line ++ (',' :: ([' ', 'c', 'o', 'l', 'u', 'm', 'n', ':', ' '] ++
      (natDigits p.column ++ ' ' :: '}' :: s)))) from rfl, after?_append]
  simp only [Option.bind_some]
  rw [readNumber_append _ _ _ rfl]
  simp only
  rw [show (',' :: ([' ', 'c', 'o', 'l', 'u', 'm', 'n', ':', ' '] ++ (natDigits p.column ++ ' ' :: '}' :: s))) =
    str! ", column: " ++ (natDigits p.column ++ ' ' :: '}' :: s) from rfl, after?_append]
  simp only [Option.map_some]
  rw [readNumber_append _ _ _ rfl]

/-! ### The texts -/

/-- the end of the last token; the very beginning if there is none -/
def endOf (ts : List STok) : Pos :=
  match ts.getLast? with
  | some t => t.stop
  | none => ⟨0, 0, 0⟩

theorem stopFrom_getLast (d : Pos) (ts : List STok) : stopFrom d ts = (ts.getLast?.map (·.stop)).getD d := by
  induction ts generalizing d with
  | nil => rfl
  | cons t ts ih =>
    simp only [stopFrom]
    rw [ih]
    cases ts with
    | nil => rfl
    | cons u us => simp [List.getLast?_cons_cons, List.getLast?_eq_some_getLast]

theorem stopOf_endOf (ts : List STok) : stopOf ts = endOf ts := by
  unfold stopOf endOf
  rw [stopFrom_getLast]
  cases ts.getLast? <;> rfl

section
variable (chars : CharClass) (esc : Char → Str) (expected : List Token → List Str)

theorem requested_viable {ts : List STok} : ∀ {pre : List STok}, Viable (pre ++ ts) → requested pre ts = pre ++ ts := by
  induction ts with
  | nil => intro pre _; simp [requested]
  | cons t ts ih =>
    intro pre h
    have h' : Viable (pre ++ [t] ++ ts) := by simpa using h
    simp only [requested]
    rw [if_pos h'.prefix, ih h']
    simp

theorem requested_split {pre post : List STok} {t : STok} (hp : Viable pre) (ht : ¬ Viable (pre ++ [t])) :
    requested [] (pre ++ t :: post) = pre ++ [t] := by
  have e : pre ++ t :: post = (pre ++ [t]) ++ post := by simp
  rw [e, requested_stop (by simpa using ht) viable_nil]
  have : ∀ (l : List STok) (p : List STok), Viable (p ++ l) → requested p (l ++ [t]) = requested (p ++ l) [t] := by
    intro l
    induction l with
    | nil => intro p _; simp
    | cons a l ih =>
      intro p h
      have h' : Viable (p ++ [a] ++ l) := by simpa using h
      simp only [List.cons_append, requested]
      rw [if_pos h'.prefix, ih _ h']
      simp [requested]
  rw [this pre [] (by simpa using hp)]
  simp only [List.nil_append, requested]
  rw [if_neg ht]

/-- C53: if `t` is the first token that no program continues with, the error shows `t` with its two
positions. -/
theorem C53_token (doc : Str) (pre post : List STok) (t : STok) (h : yielded chars doc = pre ++ t :: post)
    (hp : CanContinue pre) (ht : ¬ CanContinue (pre ++ [t])) :
    fromStr (Env.real chars esc expected) doc = .err (.parseError
      (str! "UnrecognizedToken { token: (" ++ (t.start.debug ++ (str! ", " ++ (t.tok.debug esc ++ (str! ", " ++
        (t.stop.debug ++ (str! "), expected: " ++ (debugVec ((expected ((pre ++ [t]).map (·.tok.kind))).map (debugStr esc)) ++
          str! " }"))))))))) := by
  rw [← viable_iff] at hp ht
  have hv : ¬ Viable (yielded chars doc) := by
    rw [h, show pre ++ t :: post = (pre ++ [t]) ++ post by simp]
    exact fun h => ht h.prefix
  have hm : (syntaxError expected (requested [] (yielded chars doc))).debug esc =
      str! "UnrecognizedToken { token: (" ++ (t.start.debug ++ (str! ", " ++ (t.tok.debug esc ++ (str! ", " ++
        (t.stop.debug ++ (str! "), expected: " ++ (debugVec ((expected ((pre ++ [t]).map (·.tok.kind))).map (debugStr esc)) ++
          str! " }"))))))) := by
    rw [h, requested_split hp ht, syntaxError, if_neg ht]
    simp [SyntaxError.debug]
  rw [← hm]
  cases hl : lexDoc chars doc with
  | none =>
    have hl' : lexDoc (Env.real chars esc expected).chars doc = none := hl
    have hv' : ¬ Viable (yielded (Env.real chars esc expected).chars doc) := hv
    simp only [fromStr, hl', if_neg hv']
    rfl
  | some toks =>
    have hl' : lexDoc (Env.real chars esc expected).chars doc = some toks := hl
    have hy := yielded_of_lexDoc hl
    have hp' : parseProgram toks = none := by
      cases hp' : parseProgram toks with
      | none => rfl
      | some p => exact absurd ⟨[], by rw [hy, List.append_nil, hp']; rfl⟩ hv
    simp only [fromStr, hl', hp', hy]
    rfl

/-- C53: if all tokens of the document can be continued to a program, but are none, the error shows where the
last of them ends. -/
theorem C53_eof (doc : Str) (ts : List STok) (hl : lexDoc chars doc = some ts) (hc : CanContinue ts)
    (hn : ∀ p, ¬ Derives .program ts p) :
    fromStr (Env.real chars esc expected) doc = .err (.parseError
      (str! "UnrecognizedEof { location: " ++ ((endOf ts).debug ++ (str! ", expected: " ++
        (debugVec ((expected (ts.map (·.tok.kind))).map (debugStr esc)) ++ str! " }"))))) := by
  have hl' : lexDoc (Env.real chars esc expected).chars doc = some ts := hl
  rw [← viable_iff] at hc
  have hp : parseProgram ts = none := (C16_rejected_iff ts).mpr fun ⟨p, h⟩ => hn p h
  simp only [fromStr, hl', hp]
  have hr : requested [] ts = ts := requested_viable (pre := []) (by simpa using hc)
  rw [hr, ← stopOf_endOf]
  simp only [Env.real, syntaxError, if_pos hc, SyntaxError.debug]

/-- C53: the errors of documents that are programs: one of the three things that the emitter can miss, and what it found
instead. -/
theorem C53_emitter (env : Env) (doc : Str) (ts : List STok) (p : NodeProgram) (msg : Str)
    (hl : lexDoc env.chars doc = some ts) (hd : Derives .program ts p)
    (h : fromStr env doc = .err (.parseError msg)) :
    ∃ what, what ∈ [str! "symbol name", str! "variable declaration", str! "type definition"] ∧
      ∃ found, (found = str! "nothing" ∨ ∃ x, found = env.dbg x) ∧
        msg = str! "Expected " ++ (what ++ (str! ", but found " ++ (found ++ str! "."))) := by
  rw [fromStr_parsed hl (C16_complete _ _ hd)] at h
  cases he : emitProgram env.dbg p with
  | ok c => rw [he] at h; simp at h
  | panic => rw [he] at h; simp at h
  | err e =>
    rw [he] at h
    simp only [ParseResult.err.injEq, Error.parseError.injEq] at h
    subst h
    exact emitProgram_err he

theorem first_bad : ∀ (l pre : List STok), Viable pre → ¬ Viable (pre ++ l) →
    ∃ a t b, l = a ++ t :: b ∧ Viable (pre ++ a) ∧ ¬ Viable (pre ++ a ++ [t]) := by
  intro l
  induction l with
  | nil => intro pre h hn; simp at hn; exact absurd h hn
  | cons t l ih =>
    intro pre h hn
    by_cases hv : Viable (pre ++ [t])
    · obtain ⟨a, u, b, rfl, h1, h2⟩ := ih (pre ++ [t]) hv (by simpa using hn)
      exact ⟨t :: a, u, b, rfl, by simpa using h1, by simpa using h2⟩
    · exact ⟨[], t, l, rfl, by simpa using h, by simpa using hv⟩

/-- C53: every error of `from_str` is one of the three: at the first token that no program continues with; at
the end of a document that could be continued; or a document that is a program. -/
theorem C53_cases (env : Env) (doc : Str) (e : Error) (h : fromStr env doc = .err e) :
    (∃ pre t post, yielded env.chars doc = pre ++ t :: post ∧ CanContinue pre ∧ ¬ CanContinue (pre ++ [t])) ∨
    (∃ ts, lexDoc env.chars doc = some ts ∧ CanContinue ts ∧ ∀ p, ¬ Derives .program ts p) ∨
    ∃ ts p, lexDoc env.chars doc = some ts ∧ Derives .program ts p := by
  by_cases hv : Viable (yielded env.chars doc)
  · right
    cases hl : lexDoc env.chars doc with
    | none => simp only [fromStr, hl, if_pos hv] at h; simp at h
    | some ts =>
      rw [yielded_of_lexDoc hl, viable_iff] at hv
      by_cases hd : ∃ p, Derives .program ts p
      · obtain ⟨p, hp⟩ := hd
        exact .inr ⟨ts, p, rfl, hp⟩
      · exact .inl ⟨ts, rfl, hv, fun p hp => hd ⟨p, hp⟩⟩
  · left
    obtain ⟨a, t, b, h1, h2, h3⟩ := first_bad (yielded env.chars doc) [] viable_nil (by simpa using hv)
    simp only [List.nil_append] at h2 h3
    exact ⟨a, t, b, h1, (viable_iff _).mp h2, fun h => h3 ((viable_iff _).mpr h)⟩

theorem after?_head {a b : Char} {p s : Str} (h : a ≠ b) : after? (a :: p) (b :: s) = none := by
  simp [after?, h]

/-- C53: what a reader finds in the text of an error is right: the position of the first token that no program
continues with; or the end of a document that could be continued; and if there is no position in the text, the
document is a program of the grammar. -/
theorem C53_locate (doc msg : Str) (h : fromStr (Env.real chars esc expected) doc = .err (.parseError msg)) :
    match (generalizing := false) readWhere msg with
    | some (.token p) => ∃ pre t post, yielded chars doc = pre ++ t :: post ∧ CanContinue pre ∧
        ¬ CanContinue (pre ++ [t]) ∧ t.start = p
    | some (.end_ p) => ∃ ts, lexDoc chars doc = some ts ∧ CanContinue ts ∧ (∀ p, ¬ Derives .program ts p) ∧
        endOf ts = p
    | none => ∃ ts p, lexDoc chars doc = some ts ∧ Derives .program ts p := by
  rcases C53_cases _ _ _ h with ⟨pre, t, post, h1, h2, h3⟩ | ⟨ts, h1, h2, h3⟩ | ⟨ts, p, h1, h2⟩
  · have := C53_token chars esc expected doc pre post t h1 h2 h3
    rw [h] at this
    simp only [ParseResult.err.injEq, Error.parseError.injEq] at this
    subst this
    simp only [readWhere, after?_append, readPos_debug, Option.map_some]
    exact ⟨pre, t, post, h1, h2, h3, rfl⟩
  · have := C53_eof chars esc expected doc ts h1 h2 h3
    rw [h] at this
    simp only [ParseResult.err.injEq, Error.parseError.injEq] at this
    subst this
    have e : ∀ s, after? (str! "UnrecognizedToken { token: (") (str! "UnrecognizedEof { location: " ++ s) = none :=
      fun s => rfl
    simp only [readWhere, e, after?_append, readPos_debug, Option.map_some, Option.bind_some]
    exact ⟨ts, h1, h2, h3, rfl⟩
  · obtain ⟨what, _, found, _, rfl⟩ := C53_emitter _ _ _ _ _ h1 h2 h
    have e1 : ∀ s, after? (str! "UnrecognizedToken { token: (") (str! "Expected " ++ s) = none := fun s => rfl
    have e2 : ∀ s, after? (str! "UnrecognizedEof { location: ") (str! "Expected " ++ s) = none := fun s => rfl
    simp only [readWhere, e1, e2, Option.bind_none]
    exact ⟨ts, p, h1, h2⟩

/-- C53: at the byte offset in the text stands the source text of the offending token (except for an `Unknown`
token, which has no text of its own). -/
theorem C53_offset (doc msg : Str) (p : Pos) (h : fromStr (Env.real chars esc expected) doc = .err (.parseError msg))
    (hw : readWhere msg = some (.token p)) :
    ∃ pre t post, yielded chars doc = pre ++ t :: post ∧ CanContinue pre ∧ ¬ CanContinue (pre ++ [t]) ∧
      (t.tok ≠ .unknown → ∃ before after, doc = before ++ t.tok.text ++ after ∧ bytes before = p.position) := by
  have := C53_locate chars esc expected doc msg h
  rw [hw] at this
  obtain ⟨pre, t, post, h1, h2, h3, rfl⟩ := this
  refine ⟨pre, t, post, h1, h2, h3, fun hu => ?_⟩
  obtain ⟨a, b, e1, e2, _⟩ := C05_text_is_slice chars doc t (by rw [h1]; simp) hu
  exact ⟨a, b, e1, e2⟩

end

/-- `scilla_version contract`: the version number is missing; the text points at byte 15. -/
theorem C53_witness_token (esc : Char → Str) (expected : List Token → List Str) :
    ∃ msg, fromStr (Env.real demoU esc expected) (str! "scilla_version contract") = .err (.parseError msg) ∧
      readWhere msg = some (.token ⟨15, 0, 14⟩) ∧
      str! "UnrecognizedToken { token: (SourcePosition { position: 15, line: 0, column: 14 }, Contract, " <+: msg := by
  have hy : yielded demoU (str! "scilla_version contract") =
      [⟨⟨0, 0, 0⟩, .scillaVersion, ⟨14, 0, 14⟩⟩] ++ ⟨⟨15, 0, 14⟩, .contract, ⟨23, 0, 22⟩⟩ :: [] := by decide +kernel
  have hp : CanContinue [⟨⟨0, 0, 0⟩, .scillaVersion, ⟨14, 0, 14⟩⟩] := by
    rw [← viable_iff]
    exact ⟨((lexDoc demoU (str! "scilla_version 0 contract C()")).getD []).tail, by decide +kernel⟩
  have ht : ¬ CanContinue ([⟨⟨0, 0, 0⟩, .scillaVersion, ⟨14, 0, 14⟩⟩] ++ [⟨⟨15, 0, 14⟩, .contract, ⟨23, 0, 22⟩⟩]) := by
    rintro ⟨rest, p, hd⟩
    obtain ⟨s, e, s', e', r, he⟩ := C20_version _ _ (C16_complete _ _ hd)
    simp at he
  refine ⟨_, C53_token demoU esc expected _ _ _ _ hy hp ht, ?_, ?_⟩
  · simp only [readWhere, after?_append, readPos_debug, Option.map_some]
  · exact ⟨_, rfl⟩

/-- `scilla_version 0`: the contract is missing; the text points at the end, byte 16. -/
theorem C53_witness_eof (esc : Char → Str) (expected : List Token → List Str) :
    ∃ msg, fromStr (Env.real demoU esc expected) (str! "scilla_version 0 ") = .err (.parseError msg) ∧
      readWhere msg = some (.end_ ⟨16, 0, 15⟩) := by
  have hl : lexDoc demoU (str! "scilla_version 0 ") =
      some [⟨⟨0, 0, 0⟩, .scillaVersion, ⟨14, 0, 14⟩⟩, ⟨⟨15, 0, 14⟩, .number (str! "0"), ⟨16, 0, 15⟩⟩] := by decide +kernel
  refine ⟨_, C53_eof demoU esc expected _ _ hl ?_ ?_, ?_⟩
  · rw [← viable_iff]
    exact ⟨((lexDoc demoU (str! "scilla_version 0 contract C()")).getD []).tail.tail, by decide +kernel⟩
  · intro p hp
    have := C16_complete _ _ hp
    revert this
    rw [show parseProgram [⟨⟨0, 0, 0⟩, .scillaVersion, ⟨14, 0, 14⟩⟩, ⟨⟨15, 0, 14⟩, .number (str! "0"), ⟨16, 0, 15⟩⟩] =
      none by decide +kernel]
    simp
  · have e : ∀ s, after? (str! "UnrecognizedToken { token: (") (str! "UnrecognizedEof { location: " ++ s) = none :=
      fun s => rfl
    simp only [readWhere, e, after?_append, readPos_debug, Option.map_some, Option.bind_some]
    rfl

/-- A program with an address type as a map key, and its error. -/
theorem C53_witness_emitter :
    fromStr (Env.real demoU (fun c => [c]) (fun _ => []))
      (str! "scilla_version 0 contract C () field f : Map (ByStr20 with end) Uint128 = x") =
    .err (.parseError (str! "Expected symbol name, but found TypeDefinition(SrType { main_type: \"ByStr20\", sub_types: [], address_type: Some(AddressType { type_name: \"\", fields: FieldList([]) }) }).")) := by
  decide +kernel

end Verif
