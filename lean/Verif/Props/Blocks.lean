import Verif.Proofs.Blocks
import Verif.Props.Local
/-
C84 — block structure, and forgotten, superfluous or mistaken delimiters.  `Blocked`, `Open.reads` and `delimiters` are
in Spec/Blocks.lean.
-/
namespace Verif

/-- C84: the blocks of every program -- brackets, `with … end`, `transition … end`, `procedure … end` -- are properly
nested. -/
theorem C84_nested (toks : List STok) (p : NodeProgram) (h : parseProgram toks = some p) : Blocked (toks.map (·.tok)) :=
  ⟨_, (parseProgram_sound h).blocks false [] rfl⟩

/-- C84: which blocks are open somewhere is determined by what follows: two programs that end alike have the same open
blocks where the common end begins. -/
theorem C84_rest (u w : List STok) (p q : NodeProgram) (hp : parseProgram u = some p) (hq : parseProgram w = some q)
    (a a' b : List Token) (hu : u.map (·.tok) = a ++ b) (hw : w.map (·.tok) = a' ++ b) :
    ∃ s s', Open.reads ⟨false, []⟩ a = some s ∧ Open.reads ⟨false, []⟩ a' = some s' ∧ s.closers = s'.closers := by
  obtain ⟨x, hx⟩ := C84_nested u p hp
  obtain ⟨y, hy⟩ := C84_nested w q hq
  rw [hu, Open.reads_append, Option.bind_eq_some_iff] at hx
  rw [hw, Open.reads_append, Option.bind_eq_some_iff] at hy
  obtain ⟨s, h1, h2⟩ := hx
  obtain ⟨s', k1, k2⟩ := hy
  exact ⟨s, s', h1, k1, Open.reads_unique b s s' x y h2 k2⟩

/-- So two parts that fit into the same place of a program open and close the same blocks. -/
theorem C84_replace (u w : List STok) (p q : NodeProgram) (hp : parseProgram u = some p) (hq : parseProgram w = some q)
    (a m m' b : List Token) (hu : u.map (·.tok) = a ++ (m ++ b)) (hw : w.map (·.tok) = a ++ (m' ++ b)) :
    ∃ s s1 s2, Open.reads ⟨false, []⟩ a = some s ∧ s.reads m = some s1 ∧ s.reads m' = some s2 ∧ s1.closers = s2.closers := by
  obtain ⟨s1, s2, h1, h2, e⟩ := C84_rest u w p q hp hq (a ++ m) (a ++ m') b (by simp [hu]) (by simp [hw])
  rw [Open.reads_append, Option.bind_eq_some_iff] at h1 h2
  obtain ⟨s, k1, k2⟩ := h1
  obtain ⟨s', l1, l2⟩ := h2
  rw [k1] at l1
  cases l1
  exact ⟨s, s1, s2, k1, k2, l2, e⟩

theorem read_delimiter {s s1 : Open} {t : Token} (ht : t ∈ delimiters) (h : s.read t = some s1) :
    s1.closers.length ≠ s.closers.length := by
  simp only [delimiters, List.mem_cons, List.not_mem_nil, or_false] at ht
  obtain ⟨x, st⟩ := s
  rcases ht with rfl | rfl | rfl | rfl | rfl | rfl | rfl | rfl | rfl <;> simp only [Open.read] at h <;>
    (try split at h) <;> first
    | (cases h; done)
    | (cases h; rcases st with _ | ⟨c, st⟩ <;> simp_all)

theorem read_apart {s s1 s2 : Open} {t t' : Token} (ht : t ∈ delimiters) (ht' : t' ∈ delimiters) (hn : t ≠ t')
    (hc : ¬ (t ∈ [Token.transition, .procedure] ∧ t' ∈ [Token.transition, .procedure]))
    (h : s.read t = some s1) (h' : s.read t' = some s2) : s1.closers ≠ s2.closers := by
  simp only [delimiters, List.mem_cons, List.not_mem_nil, or_false] at ht ht'
  obtain ⟨x, st⟩ := s
  rcases ht with rfl | rfl | rfl | rfl | rfl | rfl | rfl | rfl | rfl <;>
    rcases ht' with rfl | rfl | rfl | rfl | rfl | rfl | rfl | rfl | rfl <;> simp only [Open.read] at h h' <;>
    (try split at h) <;> (try split at h') <;> first
    | (exact absurd rfl hn)
    | (cases h; done)
    | (cases h'; done)
    | (cases h; cases h'; rcases st with _ | ⟨c, _ | ⟨c', st⟩⟩ <;> simp_all; done)
    | (cases h; cases h'; rcases st with _ | ⟨c, st⟩ <;> simp_all; intro h; have := congrArg List.length h; simp at this; omega)

/-- C84: a forgotten or superfluous delimiter is always found.  Of two token sequences one of which has one more
bracket, `end`, `transition` or `procedure` than the other, anywhere, at most one is a program. -/
theorem C84_one_more (u w : List STok) (a b : List Token) (t : Token) (ht : t ∈ delimiters)
    (hu : u.map (·.tok) = a ++ b) (hw : w.map (·.tok) = a ++ t :: b) :
    parseProgram u = none ∨ parseProgram w = none := by
  cases hp : parseProgram u with
  | none => exact .inl rfl
  | some p =>
    cases hq : parseProgram w with
    | none => exact .inr rfl
    | some q =>
      exfalso
      obtain ⟨s, s1, s2, -, h1, h2, e⟩ := C84_replace u w p q hp hq a [] [t] b (by simp [hu]) (by simp [hw])
      simp only [Open.reads, Option.some.injEq] at h1
      subst h1
      simp only [Open.reads] at h2
      obtain ⟨s3, k1, k2⟩ := Option.bind_eq_some_iff.1 h2
      cases k2
      exact read_delimiter ht k1 (by rw [e])

/-- C84: a mistaken delimiter is always found: putting another bracket, `end`, `transition` or `procedure` into the place
of one of them never gives a program again (except for `transition` in the place of `procedure` and conversely). -/
theorem C84_mistaken (u w : List STok) (a b : List Token) (t t' : Token) (ht : t ∈ delimiters) (ht' : t' ∈ delimiters)
    (hn : t ≠ t') (hc : ¬ (t ∈ [Token.transition, .procedure] ∧ t' ∈ [Token.transition, .procedure]))
    (hu : u.map (·.tok) = a ++ t :: b) (hw : w.map (·.tok) = a ++ t' :: b) :
    parseProgram u = none ∨ parseProgram w = none := by
  cases hp : parseProgram u with
  | none => exact .inl rfl
  | some p =>
    cases hq : parseProgram w with
    | none => exact .inr rfl
    | some q =>
      exfalso
      obtain ⟨s, s1, s2, -, h1, h2, e⟩ := C84_replace u w p q hp hq a [t] [t'] b (by simp [hu]) (by simp [hw])
      simp only [Open.reads] at h1 h2
      obtain ⟨s3, k1, k2⟩ := Option.bind_eq_some_iff.1 h1
      obtain ⟨s4, l1, l2⟩ := Option.bind_eq_some_iff.1 h2
      cases k2
      cases l2
      exact read_apart ht ht' hn hc k1 l1 e

/-- C84 on documents: after `pre` and some layout the lexer reads the delimiter `t`, and `post` comes after it.  If the
document has a contract, writing a blank instead of the delimiter gives a syntax error; if the document with the blank
has a contract, the one with the delimiter is a syntax error. -/
theorem C84_document (env : Env) (pre gap post : Str) (ts : List Token) (t : Token) (ht : t ∈ delimiters)
    (hg : Layout gap) (ha : Ascii (pre ++ (gap ++ (t.text ++ post))))
    (hb : Boundary env.chars pre ts (gap ++ (t.text ++ post)))
    (hb' : Boundary env.chars (pre ++ (gap ++ t.text)) (ts ++ [t]) post) :
    (∀ c, fromStr env (pre ++ (gap ++ (t.text ++ post))) = .ok c →
      ∃ m, fromStr env (pre ++ (gap ++ ' ' :: post)) = .err (.parseError m)) ∧
    (∀ c, fromStr env (pre ++ (gap ++ ' ' :: post)) = .ok c →
      ∃ m, fromStr env (pre ++ (gap ++ (t.text ++ post))) = .err (.parseError m)) := by
  have hne : t.text ≠ [] ∧ '"' ∉ t.text := by
    simp only [delimiters, List.mem_cons, List.not_mem_nil, or_false] at ht
    rcases ht with rfl | rfl | rfl | rfl | rfl | rfl | rfl | rfl | rfl <;> decide
  obtain ⟨l, c1, c2, h1⟩ := C57_local env.chars pre _ ts hb (.inr ⟨by simp [hne.1], ha⟩)
  have hcons : ∃ c q, gap ++ ' ' :: post = c :: q ∧ (AsciiWhite c ∨ c = '(') := by
    cases hg with
    | nil => exact ⟨_, _, rfl, .inl (.inl rfl)⟩
    | white c s hc _ => exact ⟨_, _, rfl, .inl hc⟩
    | comment b s _ _ => exact ⟨'(', _, rfl, .inr rfl⟩
  obtain ⟨c, q, hcq, hcc⟩ := hcons
  obtain ⟨h1, h2, -⟩ := h1 c q hcc (.inl (by rw [← hcq]; simp [hne.2]))
  rw [← hcq] at h1
  obtain ⟨l', c1', c2', h3, h4, -⟩ := C57_after env.chars (pre ++ (gap ++ t.text)) post (ts ++ [t]) hb'
  have hp : Ascii post := fun c hc => ha c (by simp [hc])
  have hgp : Ascii (gap ++ ' ' :: post) := by
    intro c hc
    rcases List.mem_append.1 hc with h | h
    · exact ha c (by simp [h])
    · rcases List.mem_cons.1 h with rfl | h
      · decide
      · exact hp c h
  have ha' : Ascii (pre ++ (gap ++ ' ' :: post)) := by
    intro c hc
    rcases List.mem_append.1 hc with h | h
    · exact ha c (by simp [h])
    · exact hgp c h
  obtain ⟨w, hw⟩ := C02_ascii_no_panic env.chars _ ha
  obtain ⟨u, hu⟩ := C02_ascii_no_panic env.chars _ ha'
  obtain ⟨x, hx⟩ := C02_ascii_no_panic env.chars post hp
  obtain ⟨y, hy⟩ := C02_ascii_no_panic env.chars _ hgp
  have hxy : y.map (·.tok) = x.map (·.tok) := by
    have := lexToks_layout env.chars hg (' ' :: post)
    have k := lexToks_layout env.chars (.white ' ' [] (.inl rfl) .nil) post
    rw [List.cons_append, List.nil_append] at k
    rw [k] at this
    simp only [lexToks, hx, hy, Option.map_some, Option.some.injEq] at this
    exact this
  have reloc : ∀ (n l c c' : Nat) (z : List STok), (z.map (STok.relocate n l c c')).map (·.tok) = z.map (·.tok) := by
    intro n l c c' z
    rw [List.map_map]
    rfl
  have eu : u.map (·.tok) = ts ++ x.map (·.tok) := by
    rw [yielded_of_lexDoc hu, yielded_of_lexDoc hy] at h1
    rw [h1, List.map_append, h2, reloc, hxy]
  have ew : w.map (·.tok) = ts ++ t :: x.map (·.tok) := by
    rw [List.append_assoc, List.append_assoc, yielded_of_lexDoc hw, yielded_of_lexDoc hx] at h3
    rw [List.append_assoc, List.append_assoc, yielded_of_lexDoc hw] at h4
    rw [h3, List.map_append, h4, reloc]
    simp
  have bad : ∀ d z, lexDoc env.chars d = some z → parseProgram z = none → ∃ m, fromStr env d = .err (.parseError m) := by
    intro d z hd hz
    exact ⟨_, by simp only [fromStr, hd, hz]; rfl⟩
  have good : ∀ d z c, lexDoc env.chars d = some z → fromStr env d = .ok c → parseProgram z ≠ none := by
    intro d z c hd hk hz
    obtain ⟨m, hm⟩ := bad d z hd hz
    rw [hk] at hm
    cases hm
  rcases C84_one_more u w ts (x.map (·.tok)) t ht eu ew with h | h
  · exact ⟨fun c _ => bad _ u hu h, fun c hc => absurd h (good _ u c hu hc)⟩
  · exact ⟨fun c hc => absurd h (good _ w c hw hc), fun c _ => bad _ w hw h⟩

/-- The premises are met: the `end` of a nested match, in the middle of a contract. -/
def blockPre : Str := str! "scilla_version 0 contract C () transition T () match x with | _ => match y with | A => accept end"
def blockPost : Str := str! " end transition U (a : ByStr20 with contract field f : Uint32 end) end"

theorem C84_witness : ∃ ts, Token.end_ ∈ delimiters ∧ Layout [' '] ∧
    Ascii (blockPre ++ (str! " " ++ (Token.end_.text ++ blockPost))) ∧
    Boundary demoU blockPre ts (str! " " ++ (Token.end_.text ++ blockPost)) ∧
    Boundary demoU (blockPre ++ (str! " " ++ Token.end_.text)) (ts ++ [.end_]) blockPost ∧
    fromStr demoEnv (blockPre ++ (str! " " ++ (Token.end_.text ++ blockPost))) =
      .ok ⟨str! "C", [], [], [⟨str! "T", []⟩,
        ⟨str! "U", [.mk (str! "a") (.byStr20With (str! "contract") [.mk (str! "f") .uint32])]⟩]⟩ := by
  have key : ∀ (n : Nat) (pre post : Str) (ts : List Token),
      ((callsN demoU n (.init (pre ++ post))).map fun r => (r.1, r.2.rest)) = some (ts, post) → Boundary demoU pre ts post := by
    intro n pre post ts h
    simp only [Option.map_eq_some_iff, Prod.mk.injEq] at h
    obtain ⟨⟨ts, σ⟩, h, rfl, e⟩ := h
    exact ⟨σ, callsN_calls demoU n _ _ _ h, e⟩
  refine ⟨((callsN demoU 24 (.init (blockPre ++ (str! " " ++ (Token.end_.text ++ blockPost))))).map (·.1)).getD [],
    by decide, .white _ _ (.inl rfl) .nil,
    (show ∀ c ∈ blockPre ++ (str! " " ++ (Token.end_.text ++ blockPost)), c.toNat < 128 by decide +kernel),
    key 24 _ _ _ (by decide +kernel), key 25 _ _ _ (by decide +kernel), by decide +kernel⟩

end Verif
