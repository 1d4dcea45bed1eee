import Verif.Proofs.Commas
import Verif.Props.Omission
import Verif.Spec.Mistaken
/-
C93  One token written for another.
-/
namespace Verif
open Verif.LR

/-! ### On codes -/

/-- how the terminal `i` is told from the terminal `j` -/
def tells (i j : Nat) : Bool :=
  i == 0 || i == 1 || i == 20 || parted i j || parted j i ||
  Passes.parted thirteenthPass i j || Passes.parted fifteenthPass i j ||
  (i == 13 && (![9, 13, 28, 29].contains j)) ||
  (i == 27 && (j == 13 || j == 15 || j == 29 || ![13, 15, 26, 27, 29].contains j)) ||
  (i == 12 && (j == 38 || neutral.contains j)) ||
  Passes.parted seventeenthPass i j || Passes.parted sixteenthPass i j

/-- a terminal other than `=>`, `=`, `with`, `let` or `in` stands for `in`; and `=>` or `=` -/
theorem codes_in_state {u v : List Nat} {j : Nat} (hj : j = 13 ∨ j = 15) (ha : Der lrRules [.n 18] (u ++ 27 :: v))
    (hb : Der lrRules [.n 18] (u ++ j :: v)) : False := by
  obtain ⟨s, -, h1⟩ := Counts.sentence_reads (M := letIn) (l := [0, 1]) letIn_small (by decide) letIn_fits (by decide +kernel) ha
  obtain ⟨s', -, h2⟩ := Counts.sentence_reads (M := letIn) (l := [0, 1]) letIn_small (by decide) letIn_fits (by decide +kernel) hb
  rw [Counts.reads_append, Option.bind_eq_some_iff] at h1 h2
  obtain ⟨⟨q, d⟩, h3, h4⟩ := h1
  obtain ⟨c, h5, h6⟩ := h2
  rw [h3] at h5
  cases h5
  cases d with
  | zero => simp [Counts.reads, Counts.read, letIn] at h4
  | succ d =>
    have e27 : letIn.read (q, d + 1) 27 = some (1, d) := by simp [Counts.read, letIn, Turn.on]
    have ej : letIn.read (q, d + 1) j = some (1, d + 1) := by
      rcases hj with rfl | rfl <;> simp [Counts.read, letIn, Turn.on]
    simp only [Counts.reads, e27, ej, Option.bind_some] at h4 h6
    have := letIn_more v _ _ h4 h6
    simp at this

theorem codes_tells {u v : List Nat} {i j : Nat} (hv : ∀ t ∈ u ++ v, t < 59) (h : tells i j = true)
    (ha : Der lrRules [.n 18] (u ++ i :: v)) (hb : Der lrRules [.n 18] (u ++ j :: v)) : False := by
  have hv' : ∀ t ∈ v, t < 59 := fun t ht => hv t (List.mem_append.2 (.inr ht))
  simp only [tells, Bool.or_eq_true] at h
  rcases h with ((((((((((h | h) | h) | h) | h) | h) | h) | h) | h) | h) | h) | h
  · exact omit_never (.inl (by simpa using h)) ha
  · exact omit_never (.inr (.inl (by simpa using h))) ha
  · exact omit_never (.inr (.inr (by simpa using h))) ha
  · exact codes_parted hv h ha hb
  · exact codes_parted hv h hb ha
  · exact parted_pass thirteenthPass_small (by decide) thirteenthPass_fits thirteenthPass_lost (by decide +kernel) h hv' ha hb
  · exact parted_pass fifteenthPass_small (by decide) fifteenthPass_fits fifteenthPass_lost (by decide +kernel) h hv' ha hb
  · simp only [Bool.and_eq_true, beq_iff_eq, Bool.not_eq_true', ← Bool.not_eq_true, List.contains_iff_mem] at h
    obtain ⟨rfl, h⟩ := h
    by_cases h45 : j = 45
    · subst h45; exact codes_arrow_type ha hb
    · exact codes_arrow (by simpa [h45] using h) ha hb
  · simp only [Bool.and_eq_true, Bool.or_eq_true, beq_iff_eq, Bool.not_eq_true', ← Bool.not_eq_true,
      List.contains_iff_mem] at h
    obtain ⟨rfl, ((rfl | rfl) | rfl) | h⟩ := h
    · exact codes_in_state (.inl rfl) ha hb
    · exact codes_in_state (.inr rfl) ha hb
    · exact codes_in_with ha hb
    · exact codes_in h ha hb
  · simp only [Bool.and_eq_true, Bool.or_eq_true, beq_iff_eq, List.contains_iff_mem] at h
    obtain ⟨rfl, rfl | h⟩ := h
    · exact codes_comma_field ha hb
    · exact codes_comma h hv' ha hb
  · exact parted_pass seventeenthPass_small (by decide) seventeenthPass_fits seventeenthPass_lost (by decide +kernel) h hv' ha hb
  · exact parted_pass sixteenthPass_small (by decide) sixteenthPass_fits sixteenthPass_lost (by decide +kernel) h hv' ha hb

/-! ### On tokens -/

/-- `with` for a delimiter: it never takes away a closing word, and adds no bracket -/
theorem with_delimiter {s s1 s2 : Open} {k : Token} (hk : k ∈ delimiters) (hn : k ≠ .transition ∧ k ≠ .procedure)
    (h : s.read .with_ = some s1) (h' : s.read k = some s2) : s1.closers ≠ s2.closers := by
  obtain ⟨x, st⟩ := s
  simp only [delimiters, List.mem_cons, List.not_mem_nil, or_false] at hk
  rcases hk with rfl | rfl | rfl | rfl | rfl | rfl | rfl | rfl | rfl <;> simp only [Open.read] at h h' <;>
    (repeat' split at h) <;> (try split at h') <;> first
    | (exact absurd rfl hn.1)
    | (exact absurd rfl hn.2)
    | (cases h; done)
    | (cases h'; done)
    | (cases h; cases h'; rcases st with _ | ⟨c, st⟩ <;> simp_all; done)
    | (cases h; cases h'; intro e; have := congrArg List.length e; simp at this; omega)

/-- two tokens that are told apart by their codes, or by the blocks -/
theorem mistake {u w : List STok} {a b : List Token} {k x : Token}
    (ht : (∀ i j, code k = some i → code x = some j → tells i j = true ∨ tells j i = true) ∨
      (k ∈ delimiters ∧ k ≠ .transition ∧ k ≠ .procedure ∧
        (x = .with_ ∨ Open.read ⟨false, []⟩ x = some ⟨false, []⟩)))
    (hu : u.map (·.tok) = a ++ k :: b) (hw : w.map (·.tok) = a ++ x :: b) :
    parseProgram u = none ∨ parseProgram w = none := by
  cases hp : parseProgram u with
  | none => exact .inl rfl
  | some p =>
  cases hq : parseProgram w with
  | none => exact .inr rfl
  | some q =>
  exfalso
  rcases ht with ht | ⟨hk, hn1, hn2, hx⟩
  · obtain ⟨c, hc, hd⟩ := program_codes hp
    obtain ⟨c', hc', hd'⟩ := program_codes hq
    rw [hu, List.map_append, List.map_cons] at hc
    rw [hw, List.map_append, List.map_cons] at hc'
    obtain ⟨cu, c1, rfl, h1, h2⟩ := List.map_eq_append_iff.1 hc.symm
    obtain ⟨i, cv, rfl, h3, h4⟩ := List.map_eq_cons_iff.1 h2
    obtain ⟨cu', c1', rfl, h1', h2'⟩ := List.map_eq_append_iff.1 hc'.symm
    obtain ⟨j, cv', rfl, h3', h4'⟩ := List.map_eq_cons_iff.1 h2'
    have inj : ∀ {l l' : List Nat}, l.map some = l'.map some → l = l' := fun h =>
      List.map_inj_right (fun _ _ => Option.some.inj) |>.1 h
    have e1 := inj (h1'.trans h1.symm)
    have e2 := inj (h4'.trans h4.symm)
    subst e1 e2
    have lt : ∀ (l : List Nat) (ts : List Token), l.map some = ts.map code → ∀ t ∈ l, t < 59 := by
      intro l ts h t ht
      have : some t ∈ ts.map code := by rw [← h]; exact List.mem_map.2 ⟨t, ht, rfl⟩
      obtain ⟨y, -, hy⟩ := List.mem_map.1 this
      exact code_lt hy
    have hv : ∀ t ∈ cu' ++ cv', t < 59 := by
      intro t ht
      rcases List.mem_append.1 ht with ht | ht
      · exact lt _ _ h1 t ht
      · exact lt _ _ h4 t ht
    rcases ht i j h3.symm h3'.symm with ht | ht
    · exact codes_tells hv ht hd hd'
    · exact codes_tells hv ht hd' hd
  · obtain ⟨s, s1, s2, k1, k2, k3, k4⟩ := C84_replace u w p q hp hq a [k] [x] b (by simpa using hu) (by simpa using hw)
    simp only [Open.reads, Option.bind_eq_some_iff] at k2 k3
    obtain ⟨s3, k2, k5⟩ := k2
    cases k5
    obtain ⟨s3, k3, k5⟩ := k3
    cases k5
    rcases hx with rfl | hx
    · exact with_delimiter hk ⟨hn1, hn2⟩ k3 k2 k4.symm
    · have := read_plain hx _ _ k3
      exact read_delimiter hk k2 (by rw [k4, this])

/-- the tokens without a text of their own -/
def fixedTokens : List Token := fileTerminals.filter fun t => !
  ([.byStrWithSize [], .number [], .hexNumber [], .stringLiteral [], .identifier [], .specialIdentifier [],
    .customIdentifier [], .templateIdentifier []] : List Token).contains t

def blockToken (k x : Token) : Bool :=
  delimiters.contains k && k != .transition && k != .procedure && (x == .with_ || Open.read ⟨false, []⟩ x == some ⟨false, []⟩)

def tellsTokens (k x : Token) : Bool :=
  match code k, code x with
  | some i, some j => tells i j || tells j i
  | _, _ => true

set_option maxRecDepth 100000 in
theorem fixed_told : (unmistakable.all fun k => fixedTokens.all fun x =>
    k == x || told k x || told x k || tellsTokens k x || blockToken k x || blockToken x k) = true := by decide +kernel

set_option maxRecDepth 100000 in
theorem others_told : (unmistakable.all fun k => ((List.range 59).drop 51).all fun j =>
    delimiters.contains k || k == .with_ || (match code k with | some i => tells i j || tells j i | none => false)) = true := by
  decide +kernel

/-- the tokens with a text of their own -/
def texted : Token → Bool
  | .byStrWithSize _ => true
  | .number _ => true
  | .hexNumber _ => true
  | .stringLiteral _ => true
  | .identifier _ => true
  | .specialIdentifier _ => true
  | .customIdentifier _ => true
  | .templateIdentifier _ => true
  | _ => false

theorem texted_code {x : Token} (h : texted x = true) : ∃ j ∈ (List.range 59).drop 51, code x = some j := by
  cases x <;> first | (cases h; done) | exact ⟨_, by decide, rfl⟩

theorem fixed_or (x : Token) (h : texted x = false) : x ∈ fixedTokens ∨ code x = none := by
  cases x <;> first | (cases h; done) | exact .inl (by decide +kernel) | exact .inr rfl

theorem texted_plain {x : Token} (h : texted x = true) : Open.read ⟨false, []⟩ x = some ⟨false, []⟩ := by
  cases x <;> first | (cases h; done) | rfl

theorem texted_with {x : Token} (h : texted x = true) : told .with_ x = true := by
  have hp := texted_plain h
  obtain ⟨j, hj, hc⟩ := texted_code h
  have hc' : code .with_ = some 29 := rfl
  have hn : [29, 34, 38, 48].contains j = false := by
    have : ((List.range 59).drop 51).all (fun j => ![29, 34, 38, 48].contains j) = true := by decide
    simpa using List.all_eq_true.1 this j hj
  simp only [told, hc, hc', hp, hn]
  simp

/-! ### The theorems -/

/-- C93: a token of one of the twenty-six kinds and any other token, the one in the place of the other: at most one of the two
is a program. -/
theorem C93_tokens (u w : List STok) (a b : List Token) (k x : Token) (hk : k ∈ unmistakable) (hx : x ≠ k)
    (hu : u.map (·.tok) = a ++ k :: b) (hw : w.map (·.tok) = a ++ x :: b) :
    parseProgram u = none ∨ parseProgram w = none := by
  cases ht : texted x with
  | true =>
    obtain ⟨j, hj, hc⟩ := texted_code ht
    have h := List.all_eq_true.1 (List.all_eq_true.1 others_told k hk) j hj
    rw [Bool.or_eq_true, Bool.or_eq_true, List.contains_iff_mem, beq_iff_eq] at h
    rcases h with (h | rfl) | h
    · refine mistake (.inr ⟨h, ?_, ?_, .inr (texted_plain ht)⟩) hu hw
      · rintro rfl; revert hk; decide
      · rintro rfl; revert hk; decide
    · exact told_apart (texted_with ht) hu hw
    · refine mistake (.inl fun i j' hi hj' => ?_) hu hw
      rw [hc] at hj'
      cases hj'
      rw [hi] at h
      simpa using h
  | false =>
    rcases fixed_or x ht with hf | hn
    · have h := List.all_eq_true.1 (List.all_eq_true.1 fixed_told k hk) x hf
      simp only [Bool.or_eq_true, beq_iff_eq, Ne.symm hx, false_or] at h
      have blocks : ∀ {k x : Token}, blockToken k x = true → k ∈ delimiters ∧ k ≠ .transition ∧ k ≠ .procedure ∧
          (x = .with_ ∨ Open.read ⟨false, []⟩ x = some ⟨false, []⟩) := by
        intro k x h
        simp only [blockToken, Bool.and_eq_true, Bool.or_eq_true, List.contains_iff_mem, bne_iff_ne, ne_eq, beq_iff_eq] at h
        exact ⟨h.1.1.1, h.1.1.2, h.1.2, h.2⟩
      rcases h with (((h | h) | h) | h) | h
      · exact told_apart h hu hw
      · exact (told_apart h hw hu).symm
      · refine mistake (.inl fun i j hi hj => ?_) hu hw
        simpa [tellsTokens, hi, hj] using h
      · exact mistake (.inr (blocks h)) hu hw
      · exact (mistake (.inr (blocks h)) hw hu).symm
    · refine mistake (.inl fun i j _ hj => ?_) hu hw
      rw [hn] at hj
      cases hj

/-- C93 on documents: two texts, read by the lexer up to the same rest `post`, the one as `ts` and a token of one of the
twenty-six kinds, the other as `ts` and any other token.  If one of the two documents has a contract, the other is a syntax
error. -/
theorem C93_document (env : Env) (pre pre' post : Str) (ts : List Token) (k x : Token) (hk : k ∈ unmistakable) (hx : x ≠ k)
    (hb : Boundary env.chars pre (ts ++ [k]) post) (hb' : Boundary env.chars pre' (ts ++ [x]) post) :
    (∀ c, fromStr env (pre ++ post) = .ok c → ∃ m, fromStr env (pre' ++ post) = .err (.parseError m)) ∧
    (∀ c, fromStr env (pre' ++ post) = .ok c → ∃ m, fromStr env (pre ++ post) = .err (.parseError m)) := by
  refine either_document env pre pre' post _ _ hb hb' fun u w b hu hw => ?_
  exact C93_tokens u w ts b k x hk hx (by simpa using hu) (by simpa using hw)

/-- Pairs of tokens of different kinds, and a place where both may stand: the text before, the text behind. -/
def confusions : List ((Token × Token) × Str × Str) :=
  [((.byStrWithSize (str! "ByStr20"), .eventType), str! "scilla_version 0 library ", str! " contract C ()"),
   ((.byStr, .customIdentifier (str! "A")), str! "scilla_version 0 library L let x : ", str! " = y contract C ()"),
   ((.import_, .as_), str! "scilla_version 0 import A ", str! " B contract C ()"),
   ((.hexNumber (str! "0x00"), .stringLiteral (str! "\"a\"")), str! "scilla_version 0 library L let x = ", str! " contract C ()"),
   ((.identifier (str! "y"), .specialIdentifier (str! "_sender")), str! "scilla_version 0 library L let x = ",
     str! " contract C ()"),
   ((.number (str! "7"), .identifier (str! "y")), str! "scilla_version 0 library L let x = A ", str! " contract C ()"),
   ((.builtin, .eventType), str! "scilla_version 0 library L let x = ", str! " y z contract C ()"),
   ((.transition, .procedure), str! "scilla_version 0 contract C () ", str! " T () end"),
   ((.dot, .arrow), str! "scilla_version 0 library L let x : A ", str! " B = y contract C ()"),
   ((.map, .templateIdentifier (str! "'A")), str! "scilla_version 0 library L let x : A ", str! " B B = y contract C ()"),
   ((.library, .contract), str! "scilla_version 0 contract C (a : ByStr20 with ", str! " end)"),
   ((.pipe, .type), str! "scilla_version 0 library L type T = | A ", str! " B contract C ()"),
   ((.pipe, .of_), str! "scilla_version 0 library L type T = | A ", str! " B contract C ()"),
   ((.underscore, .eventType), str! "scilla_version 0 library L let x = match y with | ", str! " => z end contract C ()"),
   ((.accept, .throw), str! "scilla_version 0 contract C () transition T () ", str! " end"),
   ((.send, .event), str! "scilla_version 0 contract C () transition T () ", str! " m end"),
   ((.forall_, .eventType), str! "scilla_version 0 contract C () transition T () ", str! " xs p end"),
   ((.semicolon, .equals), str! "scilla_version 0 contract C () transition T () x ", str! " A end"),
   ((.leftArrow, .colonEquals), str! "scilla_version 0 contract C () transition T () x ", str! " y end")]

noncomputable def exchanged (m : (Token × Token) × Str × Str) : Bool :=
  (match fromStr demoEnv (m.2.1 ++ (m.1.1.text ++ m.2.2)) with | .ok _ => true | _ => false) &&
  (match fromStr demoEnv (m.2.1 ++ (m.1.2.text ++ m.2.2)) with | .ok _ => true | _ => false) &&
  (match lexToks demoU m.2.1, lexToks demoU m.2.2 with
    | some a, some b => lexToks demoU (m.2.1 ++ (m.1.1.text ++ m.2.2)) == some (a ++ m.1.1 :: b) &&
      lexToks demoU (m.2.1 ++ (m.1.2.text ++ m.2.2)) == some (a ++ m.1.2 :: b)
    | _, _ => false)

set_option maxRecDepth 100000 in
theorem confusions_all : confusions.all exchanged = true := by decide +kernel

/-- C93: all the other kinds may be mistaken: for each of them there is a place where a token of this kind and a token of
another kind both make an accepted document. -/
theorem C93_mistakable :
    (∀ t ∈ fileTerminals, t ∈ unmistakable ∨ t ∈ mistakable) ∧
    (∀ t ∈ mistakable, t ∉ unmistakable ∧ ∃ m ∈ confusions, t = m.1.1.kind ∨ t = m.1.2.kind) ∧
    ∀ m ∈ confusions, m.1.1.kind ≠ m.1.2.kind ∧ (∃ c, fromStr demoEnv (m.2.1 ++ (m.1.1.text ++ m.2.2)) = .ok c) ∧
      (∃ c, fromStr demoEnv (m.2.1 ++ (m.1.2.text ++ m.2.2)) = .ok c) ∧
      ∃ a b, lexToks demoU (m.2.1 ++ (m.1.1.text ++ m.2.2)) = some (a ++ m.1.1 :: b) ∧
        lexToks demoU (m.2.1 ++ (m.1.2.text ++ m.2.2)) = some (a ++ m.1.2 :: b) := by
  have ok : ∀ d, (match fromStr demoEnv d with | .ok _ => true | _ => false) = true → ∃ c, fromStr demoEnv d = .ok c := by
    intro d h
    cases e : fromStr demoEnv d with
    | ok c => exact ⟨c, rfl⟩
    | _ => rw [e] at h; cases h
  have hk : ∀ m ∈ confusions, m.1.1.kind ≠ m.1.2.kind := by decide +kernel
  refine ⟨by decide +kernel, by decide +kernel, fun m hm => ?_⟩
  have := List.all_eq_true.1 confusions_all m hm
  simp only [exchanged, Bool.and_eq_true] at this
  refine ⟨hk m hm, ok _ this.1.1, ok _ this.1.2, ?_⟩
  have h := this.2
  split at h
  · rename_i a b e1 e2
    simp only [Bool.and_eq_true, beq_iff_eq] at h
    exact ⟨a, b, h.1, h.2⟩
  · cases h

/-- The premises are met: `=>` and `->` behind the pattern of a clause. -/
theorem C93_witness : ∃ ts, Token.doubleArrow ∈ unmistakable ∧ Token.arrow ≠ .doubleArrow ∧
    Boundary demoU (clausePre ++ str! " =>") (ts ++ [.doubleArrow]) clausePost ∧
    Boundary demoU (clausePre ++ str! " ->") (ts ++ [.arrow]) clausePost ∧
    ∃ c, fromStr demoEnv ((clausePre ++ str! " =>") ++ clausePost) = .ok c := by
  have key : ∀ (n : Nat) (pre post : Str) (ts : List Token),
      ((callsN demoU n (.init (pre ++ post))).map fun r => (r.1, r.2.rest)) = some (ts, post) → Boundary demoU pre ts post := by
    intro n pre post ts h
    simp only [Option.map_eq_some_iff, Prod.mk.injEq] at h
    obtain ⟨⟨ts, σ⟩, h, rfl, e⟩ := h
    exact ⟨σ, callsN_calls demoU n _ _ _ h, e⟩
  obtain ⟨-, -, -, -, hok⟩ := C91_witness
  exact ⟨((callsN demoU 26 (.init (clausePre ++ clausePost))).map (·.1)).getD [], by decide, by decide,
    key 27 _ _ _ (by decide +kernel), key 27 _ _ _ (by decide +kernel), hok⟩

end Verif
