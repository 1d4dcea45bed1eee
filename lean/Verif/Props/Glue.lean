import Verif.Props.Append
import Verif.Props.Errors
import Verif.Props.Parser2
/-
C85 — files glued together.
-/
namespace Verif

/-- the categories with programs in them -/
def NT.ofProgram : NT → Prop
  | .program => True
  | .star n => n.ofProgram
  | .plus n => n.ofProgram
  | .opt n => n.ofProgram
  | _ => False

/-- `scilla_version` is a word of the production for programs only. -/
theorem Derives.no_version {n : NT} {w : List STok} {v : Val n} (d : Derives n w v) :
    ¬ n.ofProgram → Token.scillaVersion ∉ bare w := by
  induction d <;> intros <;> simp_all [NT.ofProgram]

/-- C85: `scilla_version` stands at the beginning of a program, and nowhere else. -/
theorem C85_once (toks : List STok) (p : NodeProgram) (h : parseProgram toks = some p) :
    ∃ rest, toks.map (·.tok) = Token.scillaVersion :: rest ∧ Token.scillaVersion ∉ rest := by
  cases parseProgram_sound h with
  | program e h1 h2 h3 h4 =>
    have k1 := h1.no_version (by simp [NT.ofProgram])
    have k2 := h2.no_version (by simp [NT.ofProgram])
    have k3 := h3.no_version (by simp [NT.ofProgram])
    have k4 := h4.no_version (by simp [NT.ofProgram])
    subst e
    simp only [bare] at k1 k2 k3 k4
    refine ⟨_, rfl, by simp_all⟩

/-- C85: no proper end of a program is a program, so a program is never the result of putting tokens (another program,
for example) before a program. -/
theorem C85_glued (u w : List STok) (p q : NodeProgram) (hp : parseProgram u = some p) (hq : parseProgram w = some q)
    (a : List Token) (h : u.map (·.tok) = a ++ w.map (·.tok)) : a = [] := by
  obtain ⟨r, e, hn⟩ := C85_once u p hp
  obtain ⟨r', e', -⟩ := C85_once w q hq
  cases a with
  | nil => rfl
  | cons t a =>
    rw [e, e', List.cons_append, List.cons.injEq] at h
    rw [h.2] at hn
    simp at hn

/-- C85 on documents: when the lexer yields a second `scilla_version`, or one that is not the first token, the result is
a syntax error, whatever comes after it. -/
theorem C85_document (env : Env) (d : Str) (i : Nat) (t : STok) (hi : 0 < i) (ht : (yielded env.chars d)[i]? = some t)
    (hv : t.tok = .scillaVersion) : ∃ m, fromStr env d = .err (.parseError m) := by
  obtain ⟨hl, e⟩ := List.getElem?_eq_some_iff.1 ht
  have hc : ¬ CanContinue (yielded env.chars d) := by
    rintro ⟨rest, p, hd⟩
    obtain ⟨r, e1, hn⟩ := C85_once _ p (C16_complete _ _ hd)
    obtain ⟨j, rfl⟩ : ∃ j, i = j + 1 := ⟨i - 1, by omega⟩
    have := congrArg (·[j + 1]?) e1
    simp only [List.map_append, List.getElem?_cons_succ] at this
    rw [List.getElem?_append_left (by simpa using hl), List.getElem?_map, ht] at this
    simp only [Option.map_some, hv] at this
    exact hn (List.mem_of_getElem? this.symm)
  obtain ⟨m, h, -⟩ := C43_error_is_local env d d _ (List.prefix_refl _) (List.prefix_refl _) hc
  exact ⟨m, h⟩

/-- C85: gluing a document in front of one with a contract -- one file after the other, say -- gives a syntax error, if
the first has any token and ends in layout (with the condition of C42 on quotes). -/
theorem C85_two (env : Env) (pre lay more : Str) (ks : List Token) (c : Contract) (hb : Boundary env.chars pre ks lay)
    (hk : ks ≠ []) (hl : Layout lay) (hn : lay ≠ []) (hq : ('"' ∈ more → '"' ∈ lay) ∨ ∀ t ∈ ks, t.steady)
    (hc : fromStr env more = .ok c) : ∃ m, fromStr env (pre ++ (lay ++ more)) = .err (.parseError m) := by
  obtain ⟨sts, p, h1, h2, -⟩ := fromStr_ok_iff.mp hc
  have hm : lexToks env.chars more = some (sts.map (·.tok)) := by simp [lexToks, h1]
  obtain ⟨-, h3⟩ := lex_append env.chars hb hl hn hq hm
  obtain ⟨zs, h3, e⟩ := lexDoc_of_toks h3
  obtain ⟨r, e', -⟩ := C85_once _ p h2
  have hk' : 0 < ks.length := List.length_pos_iff.2 hk
  have : (zs.map (·.tok))[ks.length]? = some .scillaVersion := by
    rw [e, List.getElem?_append_right (Nat.le_refl _), Nat.sub_self, e']
    rfl
  rw [List.getElem?_map, Option.map_eq_some_iff] at this
  obtain ⟨t, ht, hv⟩ := this
  exact C85_document env _ ks.length t hk' (by rw [yielded_of_lexDoc h3]; exact ht) hv

/-- Premises met: two small contracts, one line each. -/
def firstFile : Str := str! "scilla_version 0 contract C (o : ByStr20) transition T () end"
def secondFile : Str := str! "scilla_version 0 contract D () field f : String = \"x\" procedure P () end"

theorem C85_witness : ∃ ks, Boundary demoU firstFile ks ['\n'] ∧ ks ≠ [] ∧ Layout ['\n'] ∧ (∀ t ∈ ks, t.steady) ∧
    fromStr demoEnv (firstFile ++ ['\n']) = .ok ⟨str! "C", [.mk (str! "o") .byStr20], [], [⟨str! "T", []⟩]⟩ ∧
    fromStr demoEnv secondFile = .ok ⟨str! "D", [], [.mk (str! "f") .string], []⟩ := by
  have key : ∀ (n : Nat) (pre post : Str) (ts : List Token),
      ((callsN demoU n (.init (pre ++ post))).map fun r => (r.1, r.2.rest)) = some (ts, post) → Boundary demoU pre ts post := by
    intro n pre post ts h
    simp only [Option.map_eq_some_iff, Prod.mk.injEq] at h
    obtain ⟨⟨ts, σ⟩, h, rfl, e⟩ := h
    exact ⟨σ, callsN_calls demoU n _ _ _ h, e⟩
  refine ⟨[.scillaVersion, .number ['0'], .contract, .customIdentifier ['C'], .openParen, .identifier ['o'], .colon,
    .byStrWithSize (str! "ByStr20"), .closeParen, .transition, .customIdentifier ['T'], .openParen, .closeParen, .end_],
    key 14 _ _ _ (by decide +kernel), by simp, .white _ _ (.inr (by decide)) .nil, ?_, by decide +kernel, by decide +kernel⟩
  intro t ht
  simp only [List.mem_cons, List.not_mem_nil, or_false] at ht
  rcases ht with rfl | rfl | rfl | rfl | rfl | rfl | rfl | rfl | rfl | rfl | rfl | rfl | rfl | rfl <;>
    exact ⟨by decide, fun s h => by cases h⟩

/-- The layout at the end of the first file is needed: a comment that is not closed swallows the second file, and the
result is the contract of the first. -/
theorem C85_open_comment :
    fromStr demoEnv (firstFile ++ (str! "\n(* the end\n" ++ secondFile)) =
      .ok ⟨str! "C", [.mk (str! "o") .byStr20], [], [⟨str! "T", []⟩]⟩ := by decide +kernel

end Verif
