import Verif.Proofs.ParserComplete
import Verif.Model.Contract
import Verif.Props.Lexer2
/-
The parser against the published grammar: C14, C15, C16, C17.
-/
namespace Verif

/-! ## C15, C16 — the parser accepts exactly the grammar's language, with the grammar's trees -/

/-- C15: an accepted token sequence is derivable by the productions of parser.lalrpop, all of it,
and the tree returned is the value of the derivation. -/
theorem C15_sound (toks : List STok) (p : NodeProgram) (h : parseProgram toks = some p) :
    Derives .program toks p := parseProgram_sound h

/-- C16: a derivable token sequence is accepted, with the derived tree. -/
theorem C16_complete (toks : List STok) (p : NodeProgram) (h : Derives .program toks p) :
    parseProgram toks = some p := parseProgram_complete h

theorem C15_C16_exact (toks : List STok) (p : NodeProgram) :
    parseProgram toks = some p ↔ Derives .program toks p :=
  ⟨parseProgram_sound, parseProgram_complete⟩

/-- A rejected sequence has no derivation at all. -/
theorem C16_rejected_iff (toks : List STok) :
    parseProgram toks = none ↔ ¬ ∃ p, Derives .program toks p := by
  constructor
  · rintro h ⟨p, hp⟩
    rw [parseProgram_complete hp] at h
    simp at h
  · intro h
    cases hp : parseProgram toks with
    | none => rfl
    | some p => exact absurd ⟨p, parseProgram_sound hp⟩ h

/-! ## C17 — unambiguity -/

/-- C17: a token sequence has at most one syntax tree. -/
theorem C17_unambiguous (toks : List STok) (p q : NodeProgram)
    (hp : Derives .program toks p) (hq : Derives .program toks q) : p = q := by
  have := (parseProgram_complete hp).symm.trans (parseProgram_complete hq)
  exact Option.some.inj this

/-- C17 for every named nonterminal of the grammar (types, expressions, statements, ...). -/
theorem C17_unambiguous_category (n : NT) (hn : n.base = true) (w : List STok) (v v' : Val n)
    (h : Derives n w v) (h' : Derives n w v') : v = v' := by
  have hg : good n = true := by
    cases n <;> first | rfl | (simp [NT.base] at hn)
  have e := comp (32 * w.length + rank n) n w v h hg (Nat.le_refl _) default [] Follow.nil
  have e' := comp (32 * w.length + rank n) n w v' h' hg (Nat.le_refl _) default [] Follow.nil
  have := e.symm.trans e'
  simp only [Option.some.injEq, Prod.mk.injEq] at this
  exact this.1

/-! A concrete program, lexed and parsed by the model, to which the theorems above apply. -/

def demoDoc : Str :=
  str! "scilla_version 0 library L let z = Uint32 0 contract C (o : ByStr20) with builtin lt z z => field m : Map ByStr20 (Option Uint128) = Emp ByStr20 (Option Uint128) procedure P() accept end transition T(a : List (Pair Int32 Bool), b : ByStr20 with contract field f : Uint32 end) x <- m[a]; match x with | Some y => m[a] := y; P | _ => end end"

/-- a classification in which no non-ASCII character is a letter, number or space -/
def demoU : CharClass := ⟨fun _ => false, fun _ => false, fun _ => false⟩

def demoToks : List STok := (lexDoc demoU demoDoc).getD []

theorem demo_lexes : lexDoc demoU demoDoc = some demoToks := by
  unfold demoToks
  have : (lexDoc demoU demoDoc).isSome = true := by decide +kernel
  cases h : lexDoc demoU demoDoc with
  | none => rw [h] at this; simp at this
  | some x => rfl

theorem demo_parses : ∃ p, parseProgram demoToks = some p := by
  have : (parseProgram demoToks).isSome = true := by decide +kernel
  exact Option.isSome_iff_exists.mp this

example : ∃ p, Derives .program demoToks p := by
  obtain ⟨p, hp⟩ := demo_parses
  exact ⟨p, C15_sound _ _ hp⟩

/-! ## C14 — characters and operators that no production mentions -/

/-- The tokens that occur in no production of the grammar. -/
def neverUsed : Token → Bool
  | .unknown | .plus | .asterisk | .minus | .comment _ | .typeName _ | .whitespace => true
  | _ => false

theorem Derives.usable {n : NT} {w : List STok} {v : Val n} (d : Derives n w v) :
    ∀ t ∈ w, neverUsed t.tok = false := by
  have key : w.all (fun t => !neverUsed t.tok) = true := by
    induction d <;> simp_all [List.all_append, neverUsed]
  intro t ht
  simpa using List.all_eq_true.mp key t ht

theorem C14_tokens (toks : List STok) (t : STok) (ht : t ∈ toks) (h : neverUsed t.tok = true) :
    parseProgram toks = none := by
  cases hp : parseProgram toks with
  | none => rfl
  | some p =>
    have := (parseProgram_sound hp).usable t ht
    rw [h] at this
    simp at this

/-- C14: if lexing a document yields an `Unknown` token, or a `+`, `*` or `-` token, parsing the
document is an error (even if the lexer would panic later on). -/
theorem C14_unknown_rejected (env : Env) (doc : Str) (t : STok) (ht : t ∈ yielded env.chars doc)
    (h : t.tok = .unknown ∨ t.tok = .plus ∨ t.tok = .asterisk ∨ t.tok = .minus) :
    ∃ msg, fromStr env doc = .err (.parseError msg) := by
  have hu : neverUsed t.tok = true := by rcases h with h | h | h | h <;> rw [h] <;> rfl
  cases hl : lexDoc env.chars doc with
  | none =>
    have : ¬ Viable (yielded env.chars doc) := by
      rintro ⟨rest, hv⟩
      rw [C14_tokens _ t (List.mem_append_left _ ht) hu] at hv
      simp at hv
    exact ⟨env.parseErrorText (requested [] (yielded env.chars doc)), by simp only [fromStr, hl, if_neg this]⟩
  | some ts =>
    rw [yielded_of_lexDoc hl] at ht
    have : parseProgram ts = none := C14_tokens ts t ht hu
    exact ⟨env.parseErrorText (requested [] ts), by simp [fromStr, hl, this]⟩

/-- documents with a `+` operator and with a `#`: their tokens -/
example : ((lexDoc demoU (str! "field f : Int + 1")).getD []).any (·.tok == .plus) = true ∧
    ((lexDoc demoU (str! "contract # C ()")).getD []).any (·.tok == .unknown) = true := by
  decide +kernel

end Verif
