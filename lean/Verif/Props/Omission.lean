import Verif.Proofs.Punctuation
import Verif.Props.Exchange
/-
C91  Which tokens can be left out.
-/
namespace Verif
open Verif.LR

/-! ### On codes -/

set_option maxRecDepth 100000 in
theorem string_next : ((List.range 59).all fun a => a == 26 || !(followers firstSets lastSets rulePairs 54).testBit a ||
    nextSets.all fun m => !(m.testBit 54 && m.testBit a)) = true := by decide +kernel
set_option maxRecDepth 100000 in
theorem string_end : (endSets.all fun m => !m.testBit 54) = true := by decide +kernel
set_option maxRecDepth 100000 in
theorem string_before : ((List.range 59).all fun p => !((followers firstSets lastSets rulePairs p).testBit 54 &&
    (followers firstSets lastSets rulePairs p).testBit 26) || [13, 15, 27, 29].contains p) = true := by decide +kernel
set_option maxRecDepth 100000 in
theorem arrow_next : (followers firstSets lastSets rulePairs 13).testBit 29 = false := by decide +kernel
set_option maxRecDepth 100000 in
theorem never_next : (nextSets.all fun m => !(m.testBit 0 || m.testBit 1 || m.testBit 20)) = true := by decide +kernel

theorem drop_string {u v : List Nat} (hu : ∀ t ∈ u, t < 59) (hv : ∀ t ∈ v, t < 59) (ha : Der lrRules [.n 18] (u ++ 54 :: v))
    (hb : Der lrRules [.n 18] (u ++ v)) : False := by
  cases v with
  | nil =>
    rw [List.append_nil] at hb
    obtain ⟨m, hm, h⟩ := both_end ha hb
    have := List.all_eq_true.1 string_end m hm
    rw [h] at this
    cases this
  | cons a v =>
    have h1 := List.all_eq_true.1 string_next a (List.mem_range.2 (hv a (by simp)))
    have h2 : (followers firstSets lastSets rulePairs 54).testBit a = true := next_code ha
    rw [h2] at h1
    simp only [Bool.not_true, Bool.or_false, Bool.or_eq_true, beq_iff_eq] at h1
    rcases h1 with rfl | h1
    · -- `let`
      rcases List.eq_nil_or_concat u with rfl | ⟨u, p, rfl⟩
      · exact absurd (first_scilla ha) (by decide)
      · rw [List.concat_eq_append] at ha hb
        have hp : (followers firstSets lastSets rulePairs p).testBit 54 = true := next_code (u := u) (by simpa using ha)
        have hp' : (followers firstSets lastSets rulePairs p).testBit 26 = true := next_code (u := u) (by simpa using hb)
        have h3 := List.all_eq_true.1 string_before p (List.mem_range.2 (hu p (by simp)))
        rw [hp, hp'] at h3
        simp only [Bool.and_self, Bool.not_true, Bool.false_or, List.contains_iff_mem] at h3
        obtain ⟨s, -, h1'⟩ := Counts.sentence_reads (M := letIn) (l := [0, 1]) letIn_small (by decide) letIn_fits (by decide +kernel) ha
        obtain ⟨s', -, h2'⟩ := Counts.sentence_reads (M := letIn) (l := [0, 1]) letIn_small (by decide) letIn_fits (by decide +kernel) hb
        rw [Counts.reads_append, Option.bind_eq_some_iff] at h1' h2'
        obtain ⟨⟨q, d⟩, h3', h4⟩ := h1'
        obtain ⟨c, h5, h6⟩ := h2'
        rw [h3'] at h5
        cases h5
        have hq1 : q = 1 := by
          rw [Counts.reads_append, Option.bind_eq_some_iff] at h3'
          obtain ⟨⟨q0, d0⟩, -, h3'⟩ := h3'
          simp only [Counts.reads, Option.bind_eq_some_iff, Counts.read, Option.map_eq_some_iff] at h3'
          obtain ⟨_, ⟨p', h7, rfl⟩, h8⟩ := h3'
          simp only [Option.some.injEq, Prod.mk.injEq] at h8
          rw [← h8.1]
          simp only [List.mem_cons, List.not_mem_nil, or_false] at h3
          rcases h3 with rfl | rfl | rfl | rfl <;> simp [letIn] at h7
          · subst h7; rfl
          · subst h7; rfl
          · obtain ⟨-, rfl⟩ := h7; rfl
          · subst h7; rfl
        subst hq1
        have e1 : letIn.read (1, d) 54 = some (0, d) := by simp [Counts.read, letIn, Turn.on]
        have e2 : letIn.read (1, d) 26 = some (0, d + 1) := by simp [Counts.read, letIn, Turn.on]
        simp only [Counts.reads, e1, e2, Option.bind_some] at h4 h6
        obtain ⟨c, h9, h10⟩ := Option.bind_eq_some_iff.1 h4
        have e3 : c = (0, d) := by
          simp only [Counts.read, letIn, if_true, Option.map_eq_some_iff] at h9
          obtain ⟨p', h9, rfl⟩ := h9
          simp only [Nat.zero_ne_one, if_false] at h9
          split at h9
          · cases h9; rfl
          · cases h9
        subst e3
        have := letIn_more v _ _ h10 h6
        simp at this
    · obtain ⟨m, hm, h3, h4⟩ := both_next (v := a :: v) (u := u) (i := 54) ha hb
      have := List.all_eq_true.1 h1 m hm
      rw [h3, h4] at this
      cases this

/-- from codes to tokens -/
theorem omit_codes {u w : List STok} {a b : List Token} {k : Token} {i : Nat} (hi : code k = some i)
    (H : ∀ cu cv : List Nat, (∀ t ∈ cu, t < 59) → (∀ t ∈ cv, t < 59) → Der lrRules [.n 18] (cu ++ i :: cv) →
      Der lrRules [.n 18] (cu ++ cv) → False)
    (hu : u.map (·.tok) = a ++ k :: b) (hw : w.map (·.tok) = a ++ b) : parseProgram u = none ∨ parseProgram w = none := by
  cases hp : parseProgram u with
  | none => exact .inl rfl
  | some p =>
  cases hq : parseProgram w with
  | none => exact .inr rfl
  | some q =>
  exfalso
  obtain ⟨c, hc, hdu⟩ := program_codes hp
  obtain ⟨c', hc', hdw⟩ := program_codes hq
  have inj : ∀ {l l' : List Nat}, l.map some = l'.map some → l = l' := fun h =>
    List.map_inj_right (fun _ _ => Option.some.inj) |>.1 h
  rw [hu, List.map_append, List.map_cons, hi] at hc
  rw [hw, List.map_append] at hc'
  obtain ⟨cu, c1, rfl, h1, h2⟩ := List.map_eq_append_iff.1 hc.symm
  obtain ⟨i', cv, rfl, h3, h4⟩ := List.map_eq_cons_iff.1 h2
  obtain ⟨cu', cv', rfl, h1', h4'⟩ := List.map_eq_append_iff.1 hc'.symm
  have e1 := inj (h1'.trans h1.symm)
  have e2 := inj (h4'.trans h4.symm)
  subst e1 e2
  cases h3
  have lt : ∀ (l : List Nat) (ts : List Token), l.map some = ts.map code → ∀ t ∈ l, t < 59 := by
    intro l ts h t ht
    have : some t ∈ ts.map code := by rw [← h]; exact List.mem_map.2 ⟨t, ht, rfl⟩
    obtain ⟨y, -, hy⟩ := List.mem_map.1 this
    exact code_lt hy
  exact H _ _ (lt _ _ h1) (lt _ _ h4) hdu hdw

theorem omit_never {i : Nat} (h : i = 0 ∨ i = 1 ∨ i = 20) {cu cv : List Nat} (hd : Der lrRules [.n 18] (cu ++ i :: cv)) :
    False := by
  obtain ⟨m, hm, h1, -⟩ := both_next hd hd
  have := List.all_eq_true.1 never_next m hm
  rcases h with rfl | rfl | rfl <;> simp [h1] at this

theorem omit_pass {A : Passes} {n i : Nat} (hn : A.size = n) (hs : A.small = true) (h1 : 1 < n) (hf : A.fits lrRules = true)
    (hk : A.keepsLost 59 = true) (hfin : A.behind 1 (.n 18) = A.final)
    (hm : (List.range n).all (fun q => A.lost (A.step q i) q) = true) {cu cv : List Nat} (hv : ∀ t ∈ cv, t < 59)
    (ha : Der lrRules [.n 18] (cu ++ i :: cv)) (hb : Der lrRules [.n 18] (cu ++ cv)) : False := by
  subst hn
  exact Passes.one_more hs h1 hf hk hfin hv
    (List.all_eq_true.1 hm _ (List.mem_range.2 (Passes.run_lt hs (by omega) cu 1 h1))) ha hb

/-! ### The theorems -/

/-- C91: leaving out a token of one of these kinds is noticed, wherever it stands: of two token sequences, one of which is
the other without it, at most one is a program. -/
theorem C91_tokens (u w : List STok) (a b : List Token) (k : Token) (hk : k.kind ∈ indispensable)
    (hu : u.map (·.tok) = a ++ k :: b) (hw : w.map (·.tok) = a ++ b) :
    parseProgram u = none ∨ parseProgram w = none := by
  by_cases hn : k ∈ needed
  · exact C89_tokens u w a b k hn hu hw
  by_cases hd : k ∈ delimiters
  · exact (C84_one_more w u a b k hd hw hu).symm
  cases k <;> first
    | (simp [Token.kind, indispensable, needed] at hk; done)
    | (exact absurd (by decide) hn)
    | (exact absurd (by decide) hd)
    | exact omit_codes (i := 54) rfl (fun cu cv h1 h2 ha hb => drop_string h1 h2 ha hb) hu hw
    | exact omit_codes (i := 0) rfl (fun cu cv _ _ ha _ => omit_never (by decide) ha) hu hw
    | exact omit_codes (i := 1) rfl (fun cu cv _ _ ha _ => omit_never (by decide) ha) hu hw
    | exact omit_codes (i := 20) rfl (fun cu cv _ _ ha _ => omit_never (by decide) ha) hu hw
    | exact omit_codes (i := 13) rfl (fun cu cv _ _ ha hb => drop_arrow (by
        rintro x v' rfl rfl
        have := next_code ha
        rw [arrow_next] at this
        cases this) ha hb) hu hw
    | exact omit_codes (i := 3) rfl (fun cu cv _ h2 ha hb => omit_pass (A := twelfthPass) rfl twelfthPass_small (by decide)
        twelfthPass_fits twelfthPass_lost (by decide +kernel) twelfth_more h2 ha hb) hu hw
    | exact omit_codes (i := 16) rfl (fun cu cv _ h2 ha hb => omit_pass (A := thirteenthPass) rfl thirteenthPass_small (by decide)
        thirteenthPass_fits thirteenthPass_lost (by decide +kernel) thirteenth_more h2 ha hb) hu hw
    | exact omit_codes (i := 19) rfl (fun cu cv _ h2 ha hb => omit_pass (A := fourteenthPass) rfl fourteenthPass_small (by decide)
        fourteenthPass_fits fourteenthPass_lost (by decide +kernel) fourteenth_more h2 ha hb) hu hw

/-- C91 on documents: two texts, read by the lexer up to the same rest `post`, the one as `ts` and the token, the other as
`ts` alone.  If one of the two documents has a contract, the other is a syntax error. -/
theorem C91_document (env : Env) (pre pre' post : Str) (ts : List Token) (k : Token) (hk : k.kind ∈ indispensable)
    (hb : Boundary env.chars pre (ts ++ [k]) post) (hb' : Boundary env.chars pre' ts post) :
    (∀ c, fromStr env (pre ++ post) = .ok c → ∃ m, fromStr env (pre' ++ post) = .err (.parseError m)) ∧
    (∀ c, fromStr env (pre' ++ post) = .ok c → ∃ m, fromStr env (pre ++ post) = .err (.parseError m)) := by
  refine either_document env pre pre' post _ _ hb hb' fun u w b hu hw => ?_
  exact C91_tokens u w _ b k hk (by simpa using hu) hw

/-- For each of the other kinds: a place where such a token may be left out; the kind, the text before, the token's text,
the text behind. -/
def leftOut : List (Token × Str × Str × Str) :=
  [(.semicolon, str! "scilla_version 0 contract C () transition T () x y ", str! ";", str! " z end"),
   (.dot, str! "scilla_version 0 contract C () field f : A = B ", str! ".", str! " c"),
   (.pipe, str! "scilla_version 0 library L type T = | A of B ", str! "|", str! " D contract C ()"),
   (.comma, str! "scilla_version 0 contract C (", str! ",", str! " a : ByStr20)"),
   (.arrow, str! "scilla_version 0 contract C () transition T () x = fun (y : A ", str! "->", str! " B) => z end"),
   (.equals, str! "scilla_version 0 contract C () transition T () x ", str! "=", str! " y end"),
   (.leftArrow, str! "scilla_version 0 contract C () transition T () x ", str! "<-", str! " y end"),
   (.colonEquals, str! "scilla_version 0 contract C () transition T () x ", str! ":=", str! " y end"),
   (.underscore, str! "scilla_version 0 contract C () transition T () match x with | A ", str! "_", str! " => end end"),
   (.eventType, str! "scilla_version 0 contract C () transition T () x = fun (y : A ", str! "Event", str! ") => z end"),
   (.byStr, str! "scilla_version 0 contract C () transition T () x = fun (y : A ", str! "ByStr", str! ") => z end"),
   (.byStrWithSize [], str! "scilla_version 0 contract C () transition T () x = fun (y : A ", str! "ByStr20", str! ") => z end"),
   (.number [], str! "scilla_version 0 contract C () transition T () x = Uint32 ", str! "1", str! " end"),
   (.hexNumber [], str! "scilla_version 0 contract C () transition T () x = fun (y : A ", str! "0x12", str! ".B) => z end"),
   (.identifier [], str! "scilla_version 0 contract C () transition T () p ", str! "x", str! " end"),
   (.specialIdentifier [], str! "scilla_version 0 contract C () transition T () p ", str! "_x", str! " end"),
   (.customIdentifier [], str! "scilla_version 0 contract C () transition T () x = fun (y : A ", str! "B", str! ") => z end"),
   (.templateIdentifier [], str! "scilla_version 0 contract C () transition T () x = fun (y : A ", str! "'B", str! ") => z end")]
  ++ omissions.map fun m => (m.1, m.2.1, m.1.text, m.2.2)

/-- the document with the token and the one without are accepted, and their tokens differ as said -/
noncomputable def leavesOut (m : Token × Str × Str × Str) : Bool :=
  (match fromStr demoEnv (m.2.1 ++ (m.2.2.1 ++ m.2.2.2)) with | .ok _ => true | _ => false) &&
  (match fromStr demoEnv (m.2.1 ++ m.2.2.2) with | .ok _ => true | _ => false) &&
  (match lexToks demoU m.2.1, lexToks demoU m.2.2.1, lexToks demoU m.2.2.2,
      lexDoc demoU (m.2.1 ++ (m.2.2.1 ++ m.2.2.2)), lexDoc demoU (m.2.1 ++ m.2.2.2) with
    | some a, some [k], some b, some u, some w => k.kind == m.1 && u.map (·.tok) == a ++ k :: b && w.map (·.tok) == a ++ b &&
      (parseProgram u).isSome && (parseProgram w).isSome
    | _, _, _, _, _ => false)

set_option maxRecDepth 100000 in
theorem leftOut_all : leftOut.all leavesOut = true := by decide +kernel

/-- C91: every kind of token is on one of the two lists and not on both, and those on the second may really be left out:
both documents are accepted. -/
theorem C91_dispensable :
    (∀ t ∈ fileTerminals, (t ∈ indispensable ↔ t ∉ dispensable)) ∧ leftOut.map (·.1) = dispensable ∧
    ∀ m ∈ leftOut, (∃ c, fromStr demoEnv (m.2.1 ++ (m.2.2.1 ++ m.2.2.2)) = .ok c) ∧
      (∃ c, fromStr demoEnv (m.2.1 ++ m.2.2.2) = .ok c) ∧ ∃ x : Token, lexToks demoU m.2.2.1 = some [x] ∧ x.kind = m.1 := by
  have ok : ∀ d, (match fromStr demoEnv d with | .ok _ => true | _ => false) = true → ∃ c, fromStr demoEnv d = .ok c := by
    intro d h
    cases e : fromStr demoEnv d with
    | ok c => exact ⟨c, rfl⟩
    | _ => rw [e] at h; cases h
  refine ⟨by decide +kernel, by decide +kernel, fun m hm => ?_⟩
  have := List.all_eq_true.1 leftOut_all m hm
  simp only [leavesOut, Bool.and_eq_true] at this
  refine ⟨ok _ this.1.1, ok _ this.1.2, ?_⟩
  have h := this.2
  split at h
  · rename_i a k b u w e1 e2 e3 e4 e5
    simp only [Bool.and_eq_true, beq_iff_eq] at h
    exact ⟨k, e2, h.1.1.1.1⟩
  · cases h

/-- C91, exactly: a kind of token is noticed whenever a token of this kind is left out if and only if it is on the first
list. -/
theorem C91_exact (t : Token) (ht : t ∈ fileTerminals) : t ∈ indispensable ↔
    ∀ (u w : List STok) (a b : List Token) (k : Token), k.kind = t → u.map (·.tok) = a ++ k :: b → w.map (·.tok) = a ++ b →
      parseProgram u = none ∨ parseProgram w = none := by
  constructor
  · rintro h u w a b k rfl hu hw
    exact C91_tokens u w a b k h hu hw
  · intro h
    rw [C91_dispensable.1 t ht]
    intro hd
    rw [← C91_dispensable.2.1] at hd
    obtain ⟨m, hm, rfl⟩ := List.mem_map.1 hd
    have := List.all_eq_true.1 leftOut_all m hm
    simp only [leavesOut, Bool.and_eq_true] at this
    have h3 := this.2
    split at h3
    · rename_i a k b u w e1 e2 e3 e4 e5
      simp only [Bool.and_eq_true, beq_iff_eq] at h3
      obtain ⟨⟨⟨⟨h4, h5⟩, h6⟩, h7⟩, h8⟩ := h3
      rcases h u w a b k h4 h5 h6 with h | h
      · rw [h] at h7; cases h7
      · rw [h] at h8; cases h8
    · cases h3

/-- The premises are met: the `=>` of a clause. -/
def clausePre : Str := str! "scilla_version 0 contract C (o : ByStr20) field f : Uint32 = Uint32 0 transition T () match x with | A b"
def clausePost : Str := str! " accept | _ => throw end end"

theorem C91_witness : ∃ ts, Token.doubleArrow.kind ∈ indispensable ∧
    Boundary demoU (clausePre ++ str! " =>") (ts ++ [.doubleArrow]) clausePost ∧ Boundary demoU clausePre ts clausePost ∧
    ∃ c, fromStr demoEnv ((clausePre ++ str! " =>") ++ clausePost) = .ok c := by
  have key : ∀ (n : Nat) (pre post : Str) (ts : List Token),
      ((callsN demoU n (.init (pre ++ post))).map fun r => (r.1, r.2.rest)) = some (ts, post) → Boundary demoU pre ts post := by
    intro n pre post ts h
    simp only [Option.map_eq_some_iff, Prod.mk.injEq] at h
    obtain ⟨⟨ts, σ⟩, h, rfl, e⟩ := h
    exact ⟨σ, callsN_calls demoU n _ _ _ h, e⟩
  refine ⟨((callsN demoU 26 (.init (clausePre ++ clausePost))).map (·.1)).getD [], by decide,
    key 27 _ _ _ (by decide +kernel), key 26 _ _ _ (by decide +kernel), ?_⟩
  have h : (match fromStr demoEnv ((clausePre ++ str! " =>") ++ clausePost) with | .ok _ => true | _ => false) = true := by
    decide +kernel
  cases e : fromStr demoEnv ((clausePre ++ str! " =>") ++ clausePost) with
  | ok c => exact ⟨c, rfl⟩
  | _ => rw [e] at h; cases h

end Verif
