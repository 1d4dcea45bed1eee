import Verif.Props.Omission
/-
C92  A token written twice.
-/
namespace Verif

theorem delimiter_kind {d : Token} (hd : d ∈ delimiters) {t : Token} (h : t.kind = d) : t = d := by
  simp only [delimiters, List.mem_cons, List.not_mem_nil, or_false] at hd
  rcases hd with rfl | rfl | rfl | rfl | rfl | rfl | rfl | rfl | rfl <;> cases t <;> simp [Token.kind] at h ⊢

theorem delimiter_self {d : Token} (hd : d ∈ delimiters) : d.kind = d := by
  simp only [delimiters, List.mem_cons, List.not_mem_nil, or_false] at hd
  rcases hd with rfl | rfl | rfl | rfl | rfl | rfl | rfl | rfl | rfl <;> rfl

/-- C92: of two token sequences, the one with a token and the other with that token and behind it one of the same kind, at
most one is a program, unless the kind is on the list. -/
theorem C92_tokens (u w : List STok) (a b : List Token) (k k' : Token) (hk : k.kind ∉ repeatable) (hkk : k'.kind = k.kind)
    (hu : u.map (·.tok) = a ++ k :: b) (hw : w.map (·.tok) = a ++ k :: k' :: b) :
    parseProgram u = none ∨ parseProgram w = none := by
  by_cases hd : k.kind ∈ delimiters
  · have e := delimiter_kind hd rfl
    have e' := delimiter_kind hd hkk
    rw [← e] at hd e'
    subst e'
    exact C84_one_more u w (a ++ [k']) b k' hd (by simpa using hu) (by simpa using hw)
  · right
    cases hq : parseProgram w with
    | none => rfl
    | some q =>
      exfalso
      obtain ⟨row, hr, e, hm⟩ := C87_accepted w q hq a b k k' hw
      rw [hkk] at hm
      have hall : (neighbours.all fun r => !r.2.contains r.1 || repeatable.contains r.1 || delimiters.contains r.1) = true := by
        decide +kernel
      have := List.all_eq_true.1 hall row hr
      rw [e, List.contains_iff_mem.2 hm] at this
      simp only [Bool.not_true, Bool.false_or, Bool.or_eq_true, List.contains_iff_mem] at this
      exact this.elim hk hd

/-- C92: a token typed twice in a document. -/
theorem C92_document (env : Env) (pre pre' post : Str) (ts : List Token) (k k' : Token) (hk : k.kind ∉ repeatable)
    (hkk : k'.kind = k.kind) (hb : Boundary env.chars pre (ts ++ [k]) post)
    (hb' : Boundary env.chars pre' (ts ++ [k, k']) post) :
    (∀ c, fromStr env (pre ++ post) = .ok c → ∃ m, fromStr env (pre' ++ post) = .err (.parseError m)) ∧
    (∀ c, fromStr env (pre' ++ post) = .ok c → ∃ m, fromStr env (pre ++ post) = .err (.parseError m)) := by
  refine either_document env pre pre' post _ _ hb hb' fun u w b hu hw => ?_
  exact C92_tokens u w ts b k k' hk hkk (by simpa using hu) (by simpa using hw)

/-- For each kind on the list a place where such a token may be written twice: the text before, the token's text, the
text behind. -/
def doubled : List (Token × Str × Str × Str) :=
  [(.underscore, str! "scilla_version 0 contract C () transition T () match x with | A ", str! "_", str! " => end end"),
   (.eventType, str! "scilla_version 0 contract C () transition T () x = fun (y : A ", str! "Event", str! ") => z end"),
   (.byStr, str! "scilla_version 0 contract C () transition T () x = fun (y : A ", str! "ByStr", str! ") => z end"),
   (.byStrWithSize [], str! "scilla_version 0 contract C () transition T () x = fun (y : A ", str! "ByStr20", str! ") => z end"),
   (.identifier [], str! "scilla_version 0 contract C () transition T () p ", str! "x", str! " end"),
   (.specialIdentifier [], str! "scilla_version 0 contract C () transition T () p ", str! "_x", str! " end"),
   (.customIdentifier [], str! "scilla_version 0 contract C () transition T () x = fun (y : A ", str! "B", str! ") => z end"),
   (.templateIdentifier [], str! "scilla_version 0 contract C () transition T () x = fun (y : A ", str! "'B", str! ") => z end")]

/-- the document with the token once and the one with the token twice are accepted, and their tokens differ as said -/
noncomputable def writtenTwice (m : Token × Str × Str × Str) : Bool :=
  (match fromStr demoEnv (m.2.1 ++ (m.2.2.1 ++ m.2.2.2)) with | .ok _ => true | _ => false) &&
  (match fromStr demoEnv (m.2.1 ++ (m.2.2.1 ++ (str! " " ++ (m.2.2.1 ++ m.2.2.2)))) with | .ok _ => true | _ => false) &&
  (match lexToks demoU m.2.1, lexToks demoU m.2.2.1, lexToks demoU m.2.2.2,
      lexDoc demoU (m.2.1 ++ (m.2.2.1 ++ m.2.2.2)),
      lexDoc demoU (m.2.1 ++ (m.2.2.1 ++ (str! " " ++ (m.2.2.1 ++ m.2.2.2)))) with
    | some a, some [k], some b, some u, some w => k.kind == m.1 && u.map (·.tok) == a ++ k :: b &&
      w.map (·.tok) == a ++ k :: k :: b && (parseProgram u).isSome && (parseProgram w).isSome
    | _, _, _, _, _ => false)

set_option maxRecDepth 100000 in
theorem doubled_all : doubled.all writtenTwice = true := by decide +kernel

/-- C92: those on the list may really be written twice: both documents are accepted. -/
theorem C92_repeatable : doubled.map (·.1) = repeatable ∧
    ∀ m ∈ doubled, (∃ c, fromStr demoEnv (m.2.1 ++ (m.2.2.1 ++ m.2.2.2)) = .ok c) ∧
      (∃ c, fromStr demoEnv (m.2.1 ++ (m.2.2.1 ++ (str! " " ++ (m.2.2.1 ++ m.2.2.2)))) = .ok c) ∧
      ∃ x : Token, lexToks demoU m.2.2.1 = some [x] ∧ x.kind = m.1 := by
  have ok : ∀ d, (match fromStr demoEnv d with | .ok _ => true | _ => false) = true → ∃ c, fromStr demoEnv d = .ok c := by
    intro d h
    cases e : fromStr demoEnv d with
    | ok c => exact ⟨c, rfl⟩
    | _ => rw [e] at h; cases h
  refine ⟨by decide +kernel, fun m hm => ?_⟩
  have := List.all_eq_true.1 doubled_all m hm
  simp only [writtenTwice, Bool.and_eq_true] at this
  refine ⟨ok _ this.1.1, ok _ this.1.2, ?_⟩
  have h := this.2
  split at h
  · rename_i a k b u w e1 e2 e3 e4 e5
    simp only [Bool.and_eq_true, beq_iff_eq] at h
    exact ⟨k, e2, h.1.1.1.1⟩
  · cases h

/-- C92, exactly: that a token of this kind is written twice is noticed everywhere if and only if it is not on the list. -/
theorem C92_exact (t : Token) (ht : t ∈ fileTerminals) : t ∉ repeatable ↔
    ∀ (u w : List STok) (a b : List Token) (k : Token), k.kind = t → u.map (·.tok) = a ++ k :: b →
      w.map (·.tok) = a ++ k :: k :: b → parseProgram u = none ∨ parseProgram w = none := by
  constructor
  · rintro h u w a b k rfl hu hw
    exact C92_tokens u w a b k k h rfl hu hw
  · intro h hd
    rw [← C92_repeatable.1] at hd
    obtain ⟨m, hm, rfl⟩ := List.mem_map.1 hd
    have := List.all_eq_true.1 doubled_all m hm
    simp only [writtenTwice, Bool.and_eq_true] at this
    have h3 := this.2
    split at h3
    · rename_i a k b u w e1 e2 e3 e4 e5
      simp only [Bool.and_eq_true, beq_iff_eq] at h3
      obtain ⟨⟨⟨⟨h4, h5⟩, h6⟩, h7⟩, h8⟩ := h3
      rcases h u w a b k h4 h5 h6 with h | h
      · rw [h] at h7; cases h7
      · rw [h] at h8; cases h8
    · cases h3

/-- The premises are met: `=>` twice. -/
theorem C92_witness : ∃ ts, Token.doubleArrow.kind ∉ repeatable ∧
    Boundary demoU (clausePre ++ str! " =>") (ts ++ [.doubleArrow]) clausePost ∧
    Boundary demoU (clausePre ++ str! " => =>") (ts ++ [.doubleArrow, .doubleArrow]) clausePost ∧
    ∃ c, fromStr demoEnv ((clausePre ++ str! " =>") ++ clausePost) = .ok c := by
  have key : ∀ (n : Nat) (pre post : Str) (ts : List Token),
      ((callsN demoU n (.init (pre ++ post))).map fun r => (r.1, r.2.rest)) = some (ts, post) → Boundary demoU pre ts post := by
    intro n pre post ts h
    simp only [Option.map_eq_some_iff, Prod.mk.injEq] at h
    obtain ⟨⟨ts, σ⟩, h, rfl, e⟩ := h
    exact ⟨σ, callsN_calls demoU n _ _ _ h, e⟩
  refine ⟨((callsN demoU 26 (.init (clausePre ++ clausePost))).map (·.1)).getD [], by decide,
    key 27 _ _ _ (by decide +kernel), key 28 _ _ _ (by decide +kernel), ?_⟩
  have h : (match fromStr demoEnv ((clausePre ++ str! " =>") ++ clausePost) with | .ok _ => true | _ => false) = true := by
    decide +kernel
  cases e : fromStr demoEnv ((clausePre ++ str! " =>") ++ clausePost) with
  | ok c => exact ⟨c, rfl⟩
  | _ => rw [e] at h; cases h

end Verif
