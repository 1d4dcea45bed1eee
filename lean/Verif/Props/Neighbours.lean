import Verif.Proofs.Neighbours
import Verif.Proofs.LRAny
import Verif.Proofs.LRSpeaks
import Verif.Spec.Neighbours
import Verif.Props.GrammarFile
import Verif.Props.Frames
import Verif.Props.Errors
import Verif.Props.Emitter1
/-
C87  What may stand next to what.
-/
namespace Verif
open Verif.LR

/-- the sets of first terminals, as `rounds` computes them -/
def firstSets : List Nat :=
  [2251799813685248, 146367125328494592, 146367125328494592, 33554432, 156500224490078208, 254453516385386496,
  254453516385386752, 444739396739006720, 444739396739006720, 444739396739006720, 444739396734812416,
  146367125328494592, 274877906944, 4096, 274877906944, 156500224490078464, 156509020583100672, 156509020583100672,
  17592186044416, 16777216, 35184439197696, 36028797018963968, 8, 32, 156509020583100672, 1024, 283163970796782592,
  32, 192529021511139328, 192529021511139584, 4, 254453516385386496, 282038064103030784, 173951673046138880,
  182403172524883968, 4, 182403172524883968, 256, 182395922347458560, 32, 36028797018963968, 64, 36028797018963968,
  4096, 256, 281492156579840, 17179869184, 281474976710656, 182403173598625792, 8589934592, 274877906944, 536870912,
  9007199254740992, 4503599627370496, 36028797018963968, 72057594037927936, 144115188075855872, 288230376151711744,
  18014398509481984, 0, 0, 146367125328494592, 0, 0, 254453516385386496, 0, 0, 0, 0, 444739396734812416, 0, 0, 4096,
  0, 0, 0, 156509020583100672, 0, 0, 35184439197696, 0, 0, 32, 0, 0, 0, 32, 0, 192529021511139584, 4, 0, 0, 0, 0, 4,
  0, 0, 0, 32, 0, 64, 0, 4096, 0, 281492156579840, 0, 0, 0, 0, 274877906944, 0, 0, 0, 0, 0, 0, 0, 0, 17592186044416]

/-- the sets of last terminals -/
def lastSets : List Nat :=
  [2251799813685248, 146367125328494592, 146367125328494592, 146367125328494592, 147493025235337216,
  108086391056891904, 108086391056892416, 435723402460791296, 435723402460791296, 435723402460791296,
  435723402460791296, 1073741824, 435723402460791296, 435723402460791296, 435723402460791296, 147493026309079552,
  147493026309079552, 147493026309079552, 575334990909286912, 575334990909278720, 575334990909278720,
  435723402460791296, 435723402460791296, 435723402460791296, 147493026309079552, 2048, 575334990909278720,
  575334990909278720, 183521822256398848, 183521822256398848, 287104614757564928, 287104614757564928,
  287104614757564928, 179018223700673024, 575339938711603840, 575339938711603840, 575339938711603840, 512,
  182395922347458560, 575339938711612032, 108086392130633856, 128, 435723402460791296, 435723402460791296, 512,
  1073741824, 1073741824, 1073741824, 1073741824, 575334990909286912, 575334990909278720, 8192, 9007199254740992,
  4503599627370496, 36028797018963968, 72057594037927936, 144115188075855872, 288230376151711744, 18014398509481984,
  0, 0, 146367125328494592, 0, 0, 108086391056891904, 0, 0, 0, 0, 435723402460791296, 0, 0, 435723402460791296, 0, 0,
  0, 147493026309079552, 0, 0, 575334990909278720, 0, 0, 435723402460791296, 0, 0, 0, 575334990909278720, 0,
  183521822256398848, 287104614757564928, 0, 0, 0, 0, 575339938711603840, 0, 0, 0, 575339938711612032, 0, 128, 0,
  435723402460791296, 0, 1073741824, 0, 0, 0, 0, 575334990909278720, 0, 0, 0, 0, 0, 0, 0, 0, 575334990909286912]

set_option maxRecDepth 100000 in
theorem firstSets_eq : rounds List.head? lrRules 119 8 = firstSets := by decide +kernel
set_option maxRecDepth 100000 in
theorem lastSets_eq : rounds List.getLast? lrRules 119 8 = lastSets := by decide +kernel
set_option maxRecDepth 100000 in
theorem firstSets_closed : closed List.head? lrRules firstSets = true := by decide +kernel
set_option maxRecDepth 100000 in
theorem lastSets_closed : closed List.getLast? lrRules lastSets = true := by decide +kernel

def longRules : List Rule := lrRules.filter fun r => 2 ≤ r.rhs.length
def rulePairs : List (Sym × Sym) := longRules.flatMap fun r => neighbourPairs r.rhs

set_option maxRecDepth 100000 in
theorem longRules_useful : (longRules.all fun r => (usefuls lrRules 18 8).contains r.lhs) = true := by decide +kernel

set_option maxRecDepth 100000 in
theorem table_rows : neighbours.map (·.1) = fileTerminals := by decide +kernel

set_option maxRecDepth 100000 in
theorem table_kinds : (neighbours.all fun row => row.2.all fun k => k.kind == k && (code k).isSome) = true := by decide +kernel

set_option maxRecDepth 100000 in
theorem table_codes : neighbours.map (fun row => row.2.filterMap code) =
    (List.range 59).map fun i => (List.range 59).filter (followers firstSets lastSets rulePairs i).testBit := by decide +kernel

set_option maxRecDepth 100000 in
theorem codes_id : fileTerminals.map code = (List.range 59).map some := by decide +kernel

theorem code_lt {t : Token} {i : Nat} (h : code t = some i) : i < 59 := by
  have := code_some h
  obtain ⟨h, -⟩ := List.getElem?_eq_some_iff.1 this
  exact h

theorem row_at {i : Nat} (hi : i < 59) : ∃ row, neighbours[i]? = some row ∧ fileTerminals[i]? = some row.1 ∧
    row.2.filterMap code = (List.range 59).filter (followers firstSets lastSets rulePairs i).testBit := by
  have h1 := congrArg (·[i]?) table_rows
  have h2 := congrArg (·[i]?) table_codes
  simp only [List.getElem?_map, List.getElem?_range hi, Option.map_some] at h1 h2
  cases e : neighbours[i]? with
  | none => rw [e] at h2; simp at h2
  | some row =>
    rw [e] at h1 h2
    simp only [Option.map_some, Option.some.injEq] at h1 h2
    exact ⟨row, rfl, h1.symm, h2⟩

theorem mayFollow_iff {a b : Token} {i j : Nat} (ha : code a = some i) (hb : code b = some j) :
    MayFollow a b ↔ (followers firstSets lastSets rulePairs i).testBit j = true := by
  obtain ⟨row, h1, h2, h3⟩ := row_at (code_lt ha)
  have hk := code_some ha
  rw [h2, Option.some.injEq] at hk
  have key : b.kind ∈ row.2 ↔ (followers firstSets lastSets rulePairs i).testBit j = true := by
    have : j ∈ row.2.filterMap code ↔ (followers firstSets lastSets rulePairs i).testBit j = true := by
      rw [h3, List.mem_filter]
      simp [code_lt hb]
    rw [← this, List.mem_filterMap]
    constructor
    · intro h
      exact ⟨_, h, by rw [code_kind, hb]⟩
    · rintro ⟨k, hk, e⟩
      have h4 := List.all_eq_true.1 (List.all_eq_true.1 table_kinds row (List.mem_of_getElem? h1)) k hk
      simp only [Bool.and_eq_true, beq_iff_eq] at h4
      rw [code_inj hb e, h4.1]
      exact hk
  rw [← key]
  constructor
  · rintro ⟨row', hm, e, hb'⟩
    obtain ⟨i', hi', e'⟩ := List.mem_iff_getElem.1 hm
    have hlen : neighbours.length = 59 := by decide +kernel
    have hi59 : i' < 59 := by omega
    obtain ⟨row2, h5, h6, -⟩ := row_at hi59
    rw [List.getElem?_eq_getElem hi', e'] at h5
    cases h5
    have c1 := congrArg (·[i']?) codes_id
    simp only [List.getElem?_map, List.getElem?_range hi59, Option.map_some, h6, e, code_kind, ha, Option.some.injEq] at c1
    subst c1
    rw [List.getElem?_eq_getElem hi', e'] at h1
    cases h1
    exact hb'
  · intro h
    exact ⟨row, List.mem_of_getElem? h1, hk, h⟩

theorem MayFollow.codes {a b : Token} (h : MayFollow a b) : (∃ i, code a = some i) ∧ ∃ j, code b = some j := by
  obtain ⟨row, hm, e, hb⟩ := h
  constructor
  · have : row.1 ∈ fileTerminals := by rw [← table_rows]; exact List.mem_map.2 ⟨row, hm, rfl⟩
    have h2 : code row.1 ∈ (List.range 59).map some := by rw [← codes_id]; exact List.mem_map.2 ⟨_, this, rfl⟩
    obtain ⟨i, -, h2⟩ := List.mem_map.1 h2
    exact ⟨i, by rw [← code_kind, ← e, h2]⟩
  · have h4 := List.all_eq_true.1 (List.all_eq_true.1 table_kinds row hm) _ hb
    simp only [Bool.and_eq_true, beq_iff_eq, code_kind] at h4
    exact Option.isSome_iff_exists.1 h4.2

/-- a printable token of each kind -/
def sample : Token → Token
  | .byStrWithSize _ => .byStrWithSize (str! "ByStr20")
  | .number _ => .number (str! "0")
  | .hexNumber _ => .hexNumber (str! "0x00")
  | .identifier _ => .identifier (str! "x")
  | .customIdentifier _ => .customIdentifier (str! "C")
  | .templateIdentifier _ => .templateIdentifier (str! "'A")
  | .specialIdentifier _ => .specialIdentifier (str! "_x")
  | .stringLiteral _ => .stringLiteral (str! "\"\"")
  | t => t

theorem sample_ok {t : Token} {i : Nat} (h : code t = some i) : Printable (sample t) ∧ code (sample t) = some i := by
  have h1 : Printable (.identifier (str! "x")) := ⟨⟨'x', [], rfl, by decide, by simp⟩, by decide⟩
  have h2 : Printable (.customIdentifier (str! "C")) := ⟨⟨'C', [], rfl, by decide, by simp⟩, by decide, by decide⟩
  have h3 : Printable (.number (str! "0")) := ⟨[], ['0'], rfl, .inl rfl, by simp, by intro c hc; simp at hc; first | (rcases hc with rfl | rfl <;> exact ⟨by decide, by decide⟩) | (subst hc; exact ⟨by decide, by decide⟩)⟩
  have h4 : Printable (.byStrWithSize (str! "ByStr20")) := ⟨['2', '0'], rfl, by simp, by intro c hc; simp at hc; first | (rcases hc with rfl | rfl <;> exact ⟨by decide, by decide⟩) | (subst hc; exact ⟨by decide, by decide⟩)⟩
  have h5 : Printable (.hexNumber (str! "0x00")) := ⟨'x', ['0', '0'], rfl, .inl rfl, by intro c hc; simp at hc; subst hc; exact .inl ⟨by decide, by decide⟩, rfl⟩
  have h6 : Printable (.templateIdentifier (str! "'A")) := ⟨'A', [], rfl, by decide, by decide, by simp⟩
  have h7 : Printable (.specialIdentifier (str! "_x")) := ⟨⟨['x'], rfl, by simp [NameChar]⟩, by decide⟩
  have h8 : Printable (.stringLiteral (str! "\"\"")) := ⟨[], rfl, .nil, by simp [Ascii]⟩
  have hk : code (sample t) = code t := by
    rw [← code_kind, ← code_kind t]
    cases t <;> rfl
  rw [hk]
  refine ⟨?_, h⟩
  rw [← code_kind] at h
  cases t <;> first | trivial | assumption | cases h

theorem tokens_of_codes {c : List Nat} (h : ∀ i ∈ c, ∃ t, code t = some i) :
    ∃ w : List Token, w.map code = c.map some ∧ ∀ t ∈ w, Printable t := by
  induction c with
  | nil => exact ⟨[], rfl, by simp⟩
  | cons i c ih =>
    obtain ⟨w, h1, h2⟩ := ih fun j hj => h j (List.mem_cons_of_mem _ hj)
    obtain ⟨t, ht⟩ := h i List.mem_cons_self
    obtain ⟨h3, h4⟩ := sample_ok ht
    refine ⟨sample t :: w, by simp [h1, h4], ?_⟩
    intro s hs
    rcases List.mem_cons.1 hs with rfl | hs
    · exact h3
    · exact h2 s hs

theorem rules_noEmpty : ∀ r ∈ lrRules, r.rhs ≠ [] := by
  rw [lrRules_eq]
  exact (tidyAny .Program).noEmpty

theorem rules_productive : ∀ r ∈ lrRules, ∀ x, Sym.n x ∈ r.rhs → ∃ w, Der lrRules [.n x] w := by
  rw [lrRules_eq]
  exact (tidyAny .Program).productive

theorem codes_follow (i j : Nat) : (∃ u v, Der desugared [.n (num .Program)] (u ++ i :: j :: v)) ↔
    (followers firstSets lastSets rulePairs i).testBit j = true := by
  have h := neighbours_iff (G := lrRules) rules_noEmpty rules_productive 18 119 8
    (by rw [firstSets_eq]; exact firstSets_closed) (by rw [lastSets_eq]; exact lastSets_closed) (G' := longRules)
    (fun r hr => (List.mem_filter.1 hr).1)
    (fun r hr => by
      by_cases h : 2 ≤ r.rhs.length
      · exact .inl (List.mem_filter.2 ⟨hr, by simpa using h⟩)
      · exact .inr (by omega))
    (fun r hr => by simpa using List.all_eq_true.1 longRules_useful r hr) i j
  rw [firstSets_eq, lastSets_eq, lrRules_eq] at h
  exact h

/-- a token before, in a program with other printable tokens -/
theorem mayFollow_program {a b : Token} (h : MayFollow a b) : ∃ pre post : List Token, (∀ t ∈ pre, Printable t) ∧
    (∀ t ∈ post, Printable t) ∧ Gen [.non .Program] (pre ++ a :: b :: post) := by
  obtain ⟨⟨i, hi⟩, ⟨j, hj⟩⟩ := h.codes
  obtain ⟨u, v, hd⟩ := (codes_follow i j).2 ((mayFollow_iff hi hj).1 h)
  have hall := der_tok hd (by simp)
  obtain ⟨pre, p1, p2⟩ := tokens_of_codes (c := u) fun k hk => hall k (by simp [hk])
  obtain ⟨post, q1, q2⟩ := tokens_of_codes (c := v) fun k hk => hall k (by simp [hk])
  refine ⟨pre, post, p2, q2, (gen_iff_der (start := .Program) _ _).2 ⟨_, ?_, hd⟩⟩
  simp [p1, q1, hi, hj]

/-- C87: two tokens can stand next to each other in a program exactly if the table says so. -/
theorem C87_exact (a b : Token) : (∃ pre post : List Token, Gen [.non .Program] (pre ++ a :: b :: post)) ↔ MayFollow a b := by
  constructor
  · rintro ⟨pre, post, h⟩
    obtain ⟨c, hc, hd⟩ := (gen_iff_der (start := .Program) _ _).1 h
    simp only [List.map_append, List.map_cons] at hc
    obtain ⟨u, c1, rfl, h1, h2⟩ := List.map_eq_append_iff.1 hc.symm
    obtain ⟨i, c2, rfl, h3, h4⟩ := List.map_eq_cons_iff.1 h2
    obtain ⟨j, v, rfl, h5, h6⟩ := List.map_eq_cons_iff.1 h4
    exact (mayFollow_iff h3.symm h5.symm).2 ((codes_follow i j).1 ⟨u, v, hd⟩)
  · intro h
    obtain ⟨pre, post, -, -, h⟩ := mayFollow_program h
    exact ⟨pre, post, h⟩

/-- C87 on trees: the same for the programs the parser accepts. -/
theorem C87_accepted (toks : List STok) (p : NodeProgram) (h : parseProgram toks = some p) (pre post : List Token) (a b : Token)
    (e : toks.map (·.tok) = pre ++ a :: b :: post) : MayFollow a b :=
  (C87_exact a b).1 ⟨pre, post, e ▸ (C59_program toks).1 ⟨p, h⟩⟩

/-- C87: the last tokens of programs. -/
theorem C87_last (a : Token) : (∃ pre : List Token, Gen [.non .Program] (pre ++ [a])) ↔ a.kind ∈ lastTokens := by
  have hset : lastTokens.filterMap code = (List.range 59).filter ((lastSets[18]?.getD 0).testBit) := by decide +kernel
  have hkinds : (lastTokens.all fun k => k.kind == k && (code k).isSome) = true := by decide +kernel
  have hmem : ∀ {i : Nat}, code a = some i → (a.kind ∈ lastTokens ↔ (lastSets[18]?.getD 0).testBit i = true) := by
    intro i hi
    have : i ∈ lastTokens.filterMap code ↔ (lastSets[18]?.getD 0).testBit i = true := by
      rw [hset, List.mem_filter]
      simp [code_lt hi]
    rw [← this, List.mem_filterMap]
    constructor
    · intro h
      exact ⟨_, h, by rw [code_kind, hi]⟩
    · rintro ⟨k, hk, e⟩
      have h4 := List.all_eq_true.1 hkinds k hk
      simp only [Bool.and_eq_true, beq_iff_eq] at h4
      rw [code_inj hi e, h4.1]
      exact hk
  constructor
  · rintro ⟨pre, h⟩
    obtain ⟨c, hc, hd⟩ := (gen_iff_der (start := .Program) _ _).1 h
    simp only [List.map_append, List.map_cons, List.map_nil] at hc
    obtain ⟨u, c1, rfl, h1, h2⟩ := List.map_eq_append_iff.1 hc.symm
    obtain ⟨i, c2, rfl, h3, h4⟩ := List.map_eq_cons_iff.1 h2
    obtain rfl := List.map_eq_nil_iff.1 h4
    rw [hmem h3.symm]
    have hs := der_sound (G := lrRules) (F := firstSets) (L := lastSets) (R := fun _ _ => True) rules_noEmpty firstSets_closed
      lastSets_closed (fun r _ => Linked.of_split fun _ _ _ _ _ _ _ _ _ => trivial) (by rw [lrRules_eq]; exact hd)
    obtain ⟨x, hx, h5⟩ := hs.2.1 _ rfl
    simp at hx
    subst hx
    exact h5
  · intro h
    have h4 := List.all_eq_true.1 hkinds _ h
    simp only [Bool.and_eq_true, beq_iff_eq, code_kind] at h4
    obtain ⟨i, hi⟩ := Option.isSome_iff_exists.1 h4.2
    have h5 := (hmem hi).1 h
    obtain ⟨u, hd⟩ := last_complete (G := lrRules) rules_productive 119 8 (.n 18) i (by rw [lastSets_eq]; exact h5)
    rw [lrRules_eq] at hd
    have hall := der_tok (start := .Program) hd (by simp)
    obtain ⟨pre, p1, p2⟩ := tokens_of_codes (c := u) fun k hk => hall k (by simp [hk])
    exact ⟨pre, (gen_iff_der (start := .Program) _ _).2 ⟨_, by simp [p1, hi], hd⟩⟩

/-- C87 on documents: two tokens next to each other that are not in the table are a syntax error, whatever stands before and
after them; the error is found before any token after them is asked for: the rest of the document does not change it. -/
theorem C87_error (env : Env) (d d' : Str) (pre post post' : List STok) (a b : STok)
    (h : yielded env.chars d = pre ++ a :: b :: post) (h' : yielded env.chars d' = pre ++ a :: b :: post')
    (hab : ¬ MayFollow a.tok b.tok) :
    ∃ m, fromStr env d = .err (.parseError m) ∧ fromStr env d' = .err (.parseError m) := by
  refine C43_error_is_local env d d' (pre ++ [a, b]) ⟨post, by simp [h]⟩ ⟨post', by simp [h']⟩ ?_
  rintro ⟨rest, p, hd⟩
  refine hab (C87_accepted _ p (C16_complete _ _ hd) (pre.map (·.tok)) (rest.map (·.tok)) _ _ ?_)
  simp

/-- C87 on documents: all the pairs of the table occur in accepted documents, whatever the texts of the two tokens. -/
theorem C87_occurs (U : CharClass) (a b : Token) (ha : Printable a) (hb : Printable b) (h : MayFollow a b) :
    ∃ pre post toks p, lexDoc U (spaced (pre ++ a :: b :: post)) = some toks ∧ toks.map (·.tok) = pre ++ a :: b :: post ∧
      parseProgram toks = some p := by
  obtain ⟨pre, post, h1, h2, hg⟩ := mayFollow_program h
  have hl := lexToks_spaced U (pre ++ a :: b :: post) (by
    intro t ht
    simp only [List.mem_append, List.mem_cons] at ht
    rcases ht with ht | rfl | rfl | ht
    · exact h1 t ht
    · exact ha
    · exact hb
    · exact h2 t ht) []
  rw [List.append_nil] at hl
  have h0 : lexToks U [] = some [] := rfl
  rw [h0, Option.map_some, List.append_nil] at hl
  obtain ⟨toks, h3, h4⟩ := lexDoc_of_toks hl
  obtain ⟨p, hp⟩ := (C59_program toks).2 (h4 ▸ hg)
  exact ⟨pre, post, toks, p, h3, h4, hp⟩

/-- C87: 627 of the 3481 pairs of kinds; and some examples. -/
theorem C87_witness : (neighbours.map fun row => row.2.length).sum = 627 ∧
    (∃ pre post : List Token, Gen [.non .Program] (pre ++ .end_ :: .transition :: post)) ∧
    (¬ ∃ pre post : List Token, Gen [.non .Program] (pre ++ .end_ :: .identifier (str! "transiton") :: post)) ∧
    (¬ ∃ pre post : List Token, Gen [.non .Program] (pre ++ .comma :: .closeParen :: post)) ∧
    (∃ m, fromStr demoEnv (str! "scilla_version 0 contract C (a : Uint32,) transition T () end") = .err (.parseError m)) := by
  refine ⟨by decide +kernel, (C87_exact _ _).2 (by decide +kernel), fun h => absurd ((C87_exact _ _).1 h) (by decide +kernel),
    fun h => absurd ((C87_exact _ _).1 h) (by decide +kernel), ?_⟩
  have hk : (((yielded demoEnv.chars (str! "scilla_version 0 contract C (a : Uint32,) transition T () end")).drop 8).take 2).map
      (·.tok) = [.comma, .closeParen] := by decide +kernel
  have hs := List.take_append_drop 8 (yielded demoEnv.chars (str! "scilla_version 0 contract C (a : Uint32,) transition T () end"))
  revert hk hs
  generalize (yielded demoEnv.chars (str! "scilla_version 0 contract C (a : Uint32,) transition T () end")).drop 8 = l
  intro hk hs
  rcases l with _ | ⟨a, _ | ⟨b, l⟩⟩
  · cases hk
  · simp at hk
  · simp only [List.take_succ_cons, List.take_zero, List.map_cons, List.map_nil, List.cons.injEq, and_true] at hk
    obtain ⟨m, h3, -⟩ := C87_error demoEnv _ _ _ l l a b hs.symm hs.symm (by rw [hk.1, hk.2]; decide +kernel)
    exact ⟨m, h3⟩

end Verif
