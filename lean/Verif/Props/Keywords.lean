import Verif.Proofs.Keywords
import Verif.Spec.Keywords
import Verif.Props.Blocks
import Verif.Props.Neighbours
/-
C88  A misspelt keyword is noticed.
-/
namespace Verif
open Verif.LR

theorem guarded_code {k : Token} (h : k ∈ guarded) : ∃ i ∈ [44, 33, 38, 34, 48, 26, 27, 28, 29, 30, 31, 32, 46, 40, 41, 49],
    code k = some i := by
  simp only [guarded, List.mem_cons, List.not_mem_nil, or_false] at h
  rcases h with rfl | rfl | rfl | rfl | rfl | rfl | rfl | rfl | rfl | rfl | rfl | rfl | rfl | rfl | rfl | rfl <;>
    exact ⟨_, by decide, rfl⟩

theorem word_code {x : Token} (h : x.word = true) : ∃ j ∈ [37, 50, 51, 55, 56, 57, 58], code x = some j ∧
    ((∀ s, x ≠ .specialIdentifier s) → j ∈ [37, 50, 51, 55, 57, 58]) := by
  cases x <;> first
    | (simp [Token.word] at h; done)
    | exact ⟨_, by decide, rfl, fun _ => by decide⟩
    | exact ⟨56, by decide, rfl, fun h => absurd rfl (h _)⟩
    | exact ⟨51, by decide, rfl, fun _ => by decide⟩
    | exact ⟨55, by decide, rfl, fun _ => by decide⟩
    | exact ⟨57, by decide, rfl, fun _ => by decide⟩
    | exact ⟨58, by decide, rfl, fun _ => by decide⟩

/-! ### Finite automata: everything but `in`, `with` and `end` -/

set_option maxRecDepth 100000 in
theorem first_lost : (List.range 47).all (fun q => [44, 38, 34, 48, 26, 28, 31, 32, 40, 41].all fun i =>
    [37, 50, 51, 55, 56, 57, 58].all fun j => firstPass.lost (firstPass.step q i) (firstPass.step q j)) = true := by decide +kernel
set_option maxRecDepth 100000 in
theorem first_lost_contract : (List.range 47).all (fun q =>
    [37, 50, 51, 55, 57, 58].all fun j => firstPass.lost (firstPass.step q 33) (firstPass.step q j)) = true := by decide +kernel
set_option maxRecDepth 100000 in
theorem second_lost : (List.range 9).all (fun q =>
    [37, 50, 51, 55, 56, 57, 58].all fun j => secondPass.lost (secondPass.step q 46) (secondPass.step q j)) = true := by decide +kernel
set_option maxRecDepth 100000 in
theorem third_lost : (List.range 20).all (fun q =>
    [37, 50, 51, 55, 56, 57, 58].all fun j => thirdPass.lost (thirdPass.step q 49) (thirdPass.step q j)) = true := by decide +kernel

theorem codes_apart {u v : List Nat} {i j : Nat} (hv : ∀ t ∈ v, t < 59)
    (h : (i ∈ [44, 38, 34, 48, 26, 28, 31, 32, 40, 41, 46, 49] ∧ j ∈ [37, 50, 51, 55, 56, 57, 58]) ∨
      (i = 33 ∧ j ∈ [37, 50, 51, 55, 57, 58]))
    (ha : Der lrRules [.n 18] (u ++ i :: v)) (hb : Der lrRules [.n 18] (u ++ j :: v)) : False := by
  have first : (∀ q < 47, firstPass.lost (firstPass.step q i) (firstPass.step q j) = true) → False := fun hl =>
    Passes.one_of_two (A := firstPass) firstPass_small (by decide) firstPass_fits firstPass_lost (by decide +kernel) hv hl ha hb
  rcases h with ⟨hi, hj⟩ | ⟨rfl, hj⟩
  · by_cases h46 : i = 46
    · subst h46
      exact Passes.one_of_two (A := secondPass) secondPass_small (by decide) secondPass_fits secondPass_lost (by decide +kernel) hv
        (fun q hq => List.all_eq_true.1 (List.all_eq_true.1 second_lost q (List.mem_range.2 hq)) j hj) ha hb
    · by_cases h49 : i = 49
      · subst h49
        exact Passes.one_of_two (A := thirdPass) thirdPass_small (by decide) thirdPass_fits thirdPass_lost (by decide +kernel) hv
          (fun q hq => List.all_eq_true.1 (List.all_eq_true.1 third_lost q (List.mem_range.2 hq)) j hj) ha hb
      · have hi' : i ∈ [44, 38, 34, 48, 26, 28, 31, 32, 40, 41] := by
          simp only [List.mem_cons, List.not_mem_nil, or_false] at hi ⊢
          omega
        exact first fun q hq =>
          List.all_eq_true.1 (List.all_eq_true.1 (List.all_eq_true.1 first_lost q (List.mem_range.2 hq)) i hi') j hj
  · exact first fun q hq => List.all_eq_true.1 (List.all_eq_true.1 first_lost_contract q (List.mem_range.2 hq)) j hj

/-! ### `in` -/

/-- one more expression waiting for its `in`: it never gets it -/
theorem letIn_more (v : List Nat) : ∀ (s d : Nat) {c c' : Nat × Nat}, letIn.reads (s, d) v = some c → letIn.reads (s, d + 1) v = some c' →
    c'.2 = c.2 + 1 := by
  induction v with
  | nil => intro s d c c' h h'; cases h; cases h'; rfl
  | cons a v ih =>
    intro s d c c' h h'
    simp only [Counts.reads, Option.bind_eq_some_iff, Counts.read, Option.map_eq_some_iff] at h h'
    obtain ⟨_, ⟨⟨s1, m1⟩, h1, rfl⟩, h2⟩ := h
    obtain ⟨_, ⟨⟨s2, m2⟩, h3, rfl⟩, h4⟩ := h'
    have e : (d + 1 == 0) = false := by simp
    rw [e] at h3
    have key : s1 = s2 ∧ m2.on (d + 1) = m1.on d + 1 := by
      simp only [letIn] at h1 h3
      by_cases h26 : a = 26
      · simp only [h26, if_true] at h1 h3
        by_cases hs : s = 1
        · simp only [hs, if_true, Option.some.injEq, Prod.mk.injEq] at h1 h3
          obtain ⟨rfl, rfl⟩ := h1
          obtain ⟨rfl, rfl⟩ := h3
          exact ⟨rfl, rfl⟩
        · simp [hs] at h3
      · simp only [h26, if_false] at h1 h3
        by_cases h27 : a = 27
        · simp only [h27, if_true, Bool.false_eq_true, if_false, Option.some.injEq, Prod.mk.injEq] at h1 h3
          obtain ⟨rfl, rfl⟩ := h3
          by_cases hd : d = 0
          · subst hd; simp at h1
          · have : (d == 0) = false := by simpa using hd
            simp only [this, Bool.false_eq_true, if_false, Option.some.injEq, Prod.mk.injEq] at h1
            obtain ⟨rfl, rfl⟩ := h1
            exact ⟨rfl, by simp only [Turn.on]; omega⟩
        · simp only [h27, if_false] at h1 h3
          rw [h1] at h3
          cases h3
          refine ⟨rfl, ?_⟩
          split at h1 <;> (cases h1; rfl)
    obtain ⟨rfl, k2⟩ := key
    rw [k2] at h4
    exact ih _ _ h2 h4

theorem codes_in {u v : List Nat} {j : Nat} (hj : j ∉ [13, 15, 26, 27, 29])
    (ha : Der lrRules [.n 18] (u ++ 27 :: v)) (hb : Der lrRules [.n 18] (u ++ j :: v)) : False := by
  obtain ⟨s, -, h1⟩ := Counts.sentence_reads (M := letIn) (l := [0, 1]) letIn_small (by decide) letIn_fits (by decide +kernel) ha
  obtain ⟨s', -, h2⟩ := Counts.sentence_reads (M := letIn) (l := [0, 1]) letIn_small (by decide) letIn_fits (by decide +kernel) hb
  rw [Counts.reads_append, Option.bind_eq_some_iff] at h1 h2
  obtain ⟨⟨q, d⟩, h3, h4⟩ := h1
  obtain ⟨c, h5, h6⟩ := h2
  rw [h3] at h5
  cases h5
  -- behind `in` and behind the word
  have e27 : ∃ d', d = d' + 1 ∧ letIn.read (q, d) 27 = some (1, d') := by
    simp only [Counts.reads, Option.bind_eq_some_iff] at h4
    obtain ⟨c, h, -⟩ := h4
    cases d with
    | zero => simp [Counts.read, letIn] at h
    | succ d => exact ⟨d, rfl, by simp [Counts.read, letIn, Turn.on]⟩
  obtain ⟨d, rfl, e27⟩ := e27
  have ej : letIn.read (q, d + 1) j = some (0, d + 1) := by
    simp only [List.mem_cons, List.not_mem_nil, or_false, not_or] at hj
    simp [Counts.read, letIn, Turn.on, hj]
  simp only [Counts.reads, e27, ej, Option.bind_some] at h4 h6
  cases v with
  | nil => cases h6
  | cons a v =>
    simp only [Counts.reads, Option.bind_eq_some_iff] at h4 h6
    obtain ⟨c, h7, h8⟩ := h4
    obtain ⟨c', h9, h10⟩ := h6
    by_cases h26 : a = 26
    · subst h26
      simp [Counts.read, letIn] at h9
    · have : c' = (c.1, c.2 + 1) := by
        simp only [Counts.read, letIn, h26, if_false, Option.map_eq_some_iff] at h7 h9
        obtain ⟨p, h7, rfl⟩ := h7
        obtain ⟨p', h9, rfl⟩ := h9
        have e : (d + 1 == 0) = false := by simp
        simp only [e, Bool.false_eq_true, if_false] at h9
        by_cases h27 : a = 27
        · simp only [h27, if_true] at h7 h9
          cases h9
          by_cases hd : d = 0
          · subst hd; simp at h7
          · have : (d == 0) = false := by simpa using hd
            simp only [this, Bool.false_eq_true, if_false] at h7
            cases h7
            simp only [Turn.on, Prod.mk.injEq, true_and]
            omega
        · simp only [h27, if_false] at h7 h9
          rw [h7] at h9
          cases h9
          split at h7 <;> (cases h7; rfl)
      subst this
      have := letIn_more v _ _ h8 h10
      simp at this

/-! ### `with` behind `)` -/

theorem header_paren {c : Nat × Nat} : ∀ (u : List Nat) {c0 : Nat × Nat}, header.reads c0 (u ++ [9]) = some c →
    c.1 = 2 ∨ c.1 = 4 ∨ c.1 = 6 ∨ c.1 = 7 ∨ c.1 = 9 := by
  intro u c0 h
  rw [Counts.reads_append, Option.bind_eq_some_iff] at h
  obtain ⟨⟨s, d⟩, -, h⟩ := h
  simp only [Counts.reads, Option.bind_eq_some_iff, Counts.read, Option.map_eq_some_iff] at h
  obtain ⟨_, ⟨p, h, rfl⟩, h'⟩ := h
  simp only [Option.some.injEq] at h'
  subst h'
  simp [header] at h
  repeat' split at h
  all_goals first
    | (cases h; done)
    | (cases h; simp; done)
    | (exfalso; omega)

theorem codes_with {u v : List Nat} {j : Nat} (hj : j ∉ [29, 34, 38, 48])
    (ha : Der lrRules [.n 18] (u ++ [9] ++ 29 :: v)) (hb : Der lrRules [.n 18] (u ++ [9] ++ j :: v)) : False := by
  obtain ⟨s, -, h1⟩ := Counts.sentence_reads (M := header) (l := [7, 8, 9]) header_small (by decide) header_fits (by decide +kernel) ha
  obtain ⟨s', -, h2⟩ := Counts.sentence_reads (M := header) (l := [7, 8, 9]) header_small (by decide) header_fits (by decide +kernel) hb
  rw [Counts.reads_append, Option.bind_eq_some_iff] at h1 h2
  obtain ⟨⟨q, d⟩, h3, h4⟩ := h1
  obtain ⟨c, h5, h6⟩ := h2
  rw [h3] at h5
  cases h5
  simp only [Counts.reads, Option.bind_eq_some_iff, Counts.read, Option.map_eq_some_iff] at h4 h6
  obtain ⟨_, ⟨p, h7, -⟩, -⟩ := h4
  obtain ⟨_, ⟨p', h8, -⟩, -⟩ := h6
  have hq := header_paren u h3
  simp only at hq
  rcases hq with rfl | rfl | rfl | rfl | rfl
  · simp [header] at h7
  · simp [header] at h7
  · simp [header] at h7
  · simp only [List.mem_cons, List.not_mem_nil, or_false, not_or] at hj
    simp [header, hj] at h8
  · simp [header] at h7

theorem read_paren {s : Open} {cl : List Token} {t : Token} (h : s.read t = some ⟨true, cl⟩) : t = .closeParen := by
  cases t <;> first
    | rfl
    | (simp only [Open.read, Option.some.injEq, Open.mk.injEq, Bool.false_eq_true, false_and] at h; done)
    | (simp only [Open.read] at h; repeat' split at h
       all_goals first
         | (cases h; done)
         | simp at h)

/-! ### The theorems -/

theorem program_codes {toks : List STok} {p : NodeProgram} (h : parseProgram toks = some p) :
    ∃ c : List Nat, (toks.map (·.tok)).map code = c.map some ∧ Der lrRules [.n 18] c := by
  obtain ⟨c, hc, hd⟩ := (gen_iff_der (start := .Program) .Program _).1 ((C59_program toks).1 ⟨p, h⟩)
  refine ⟨c, hc, ?_⟩
  rw [lrRules_eq]
  exact hd

/-- C88: a word in the place of a guarded keyword, anywhere: at most one of the two is a program. -/
theorem C88_tokens (u w : List STok) (a b : List Token) (k x : Token) (hk : k ∈ guarded) (hx : x.word = true)
    (he : ¬ Excepted k x) (hu : u.map (·.tok) = a ++ k :: b) (hw : w.map (·.tok) = a ++ x :: b) :
    parseProgram u = none ∨ parseProgram w = none := by
  cases hp : parseProgram u with
  | none => exact .inl rfl
  | some p =>
  cases hq : parseProgram w with
  | none => exact .inr rfl
  | some q =>
  exfalso
  obtain ⟨c, hc, hd⟩ := program_codes hp
  obtain ⟨c', hc', hd'⟩ := program_codes hq
  obtain ⟨i, hi, hik⟩ := guarded_code hk
  obtain ⟨j, hj, hjx, hj'⟩ := word_code hx
  rw [hu, List.map_append, List.map_cons, hik] at hc
  rw [hw, List.map_append, List.map_cons, hjx] at hc'
  obtain ⟨cu, c1, rfl, h1, h2⟩ := List.map_eq_append_iff.1 hc.symm
  obtain ⟨i', cv, rfl, h3, h4⟩ := List.map_eq_cons_iff.1 h2
  obtain ⟨cu', c1', rfl, h1', h2'⟩ := List.map_eq_append_iff.1 hc'.symm
  obtain ⟨j', cv', rfl, h3', h4'⟩ := List.map_eq_cons_iff.1 h2'
  have inj : ∀ {l l' : List Nat}, l.map some = l'.map some → l = l' := fun h =>
    List.map_inj_right (fun _ _ => Option.some.inj) |>.1 h
  have e1 := inj (h1'.trans h1.symm)
  have e2 := inj (h4'.trans h4.symm)
  subst e1 e2
  cases h3; cases h3'
  have hv : ∀ t ∈ cv', t < 59 := by
    intro t ht
    have : some t ∈ b.map code := by rw [← h4]; exact List.mem_map.2 ⟨t, ht, rfl⟩
    obtain ⟨y, -, hy⟩ := List.mem_map.1 this
    exact code_lt hy
  by_cases h27 : i = 27
  · subst h27; exact codes_in (fun h => by simp only [List.mem_cons, List.not_mem_nil, or_false] at h hj; omega) hd hd'
  by_cases h33 : i = 33
  · have hk33 : k = .contract := by
      simp only [guarded, List.mem_cons, List.not_mem_nil, or_false] at hk
      rcases hk with rfl | rfl | rfl | rfl | rfl | rfl | rfl | rfl | rfl | rfl | rfl | rfl | rfl | rfl | rfl | rfl <;> first
        | rfl
        | (exfalso; rw [h33] at hik; revert hik; decide)
    exact codes_apart hv (.inr ⟨h33, hj' fun s hs => he ⟨hk33, s, hs⟩⟩) hd hd'
  by_cases h29 : i = 29 ∨ i = 30
  · -- blocks
    have hkw : k = .with_ ∨ k = .end_ := by
      simp only [guarded, List.mem_cons, List.not_mem_nil, or_false] at hk
      rcases hk with rfl | rfl | rfl | rfl | rfl | rfl | rfl | rfl | rfl | rfl | rfl | rfl | rfl | rfl | rfl | rfl <;> first
        | exact .inl rfl
        | exact .inr rfl
        | (exfalso; rcases h29 with h | h <;> (rw [h] at hik; revert hik; decide))
    obtain ⟨s, s1, s2, k1, k2, k3, k4⟩ := C84_replace u w p q hp hq a [k] [x] b (by simpa using hu) (by simpa using hw)
    have hread : s2 = ⟨false, s.closers⟩ := by
      simp only [Open.reads, Option.bind_eq_some_iff] at k3
      obtain ⟨s3, k3, k5⟩ := k3
      cases k5
      cases x <;> first
        | (simp [Token.word] at hx; done)
        | (simp only [Open.read, Option.some.injEq] at k3; exact k3.symm)
    subst hread
    simp only [Open.reads, Option.bind_eq_some_iff] at k2
    obtain ⟨s3, k2, k5⟩ := k2
    cases k5
    rcases hkw with rfl | rfl
    · -- `with`
      obtain ⟨par, cl⟩ := s
      cases par with
      | false =>
        simp only [Open.read, Bool.false_eq_true, if_false, Option.some.injEq] at k2
        subst k2
        have := congrArg List.length k4
        simp at this
      | true =>
        -- the last token before is `)`
        have hlast : ∃ a', a = a' ++ [.closeParen] := by
          rcases List.eq_nil_or_concat a with rfl | ⟨a', t, rfl⟩
          · simp [Open.reads] at k1
          · refine ⟨a', ?_⟩
            rw [List.concat_eq_append] at k1 ⊢
            rw [Open.reads_append, Option.bind_eq_some_iff] at k1
            obtain ⟨s4, -, k6⟩ := k1
            simp only [Open.reads, Option.bind_eq_some_iff] at k6
            obtain ⟨s5, k6, k7⟩ := k6
            cases k7
            rw [read_paren k6]
        obtain ⟨a', rfl⟩ := hlast
        have h9 : ∃ u', cu' = u' ++ [9] := by
          rw [List.map_append] at h1
          obtain ⟨u', l, rfl, -, hl⟩ := List.map_eq_append_iff.1 h1
          refine ⟨u', ?_⟩
          have : l.map some = [some 9] := hl.trans rfl
          rw [inj (l' := [9]) this]
        obtain ⟨u', rfl⟩ := h9
        have hi29 : i = 29 := by
          have : code Token.with_ = some 29 := rfl
          rw [this] at hik
          exact (Option.some.inj hik).symm
        subst hi29
        exact codes_with (fun h => by simp only [List.mem_cons, List.not_mem_nil, or_false] at h hj; omega) hd hd'
    · -- `end`
      exact read_delimiter (by decide) k2 (by rw [k4])
  · refine codes_apart hv (.inl ⟨?_, hj⟩) hd hd'
    simp only [List.mem_cons, List.not_mem_nil, or_false] at hi ⊢
    omega

/-- Two texts that the lexer reads up to the same rest `post`, as `ts` and as `ts'`.  If never both of them go on to a
program, then not both documents have a contract. -/
theorem either_document (env : Env) (pre pre' post : Str) (ts ts' : List Token)
    (hb : Boundary env.chars pre ts post) (hb' : Boundary env.chars pre' ts' post)
    (hn : ∀ (u w : List STok) (b : List Token), u.map (·.tok) = ts ++ b → w.map (·.tok) = ts' ++ b →
      parseProgram u = none ∨ parseProgram w = none) :
    (∀ c, fromStr env (pre ++ post) = .ok c → ∃ m, fromStr env (pre' ++ post) = .err (.parseError m)) ∧
    (∀ c, fromStr env (pre' ++ post) = .ok c → ∃ m, fromStr env (pre ++ post) = .err (.parseError m)) := by
  obtain ⟨l1, c1, c2, h1, h2, h3⟩ := C57_after env.chars pre post _ hb
  obtain ⟨l1', c1', c2', h1', h2', h3'⟩ := C57_after env.chars pre' post _ hb'
  have reloc : ∀ (n l c c' : Nat) (z : List STok), (z.map (STok.relocate n l c c')).map (·.tok) = z.map (·.tok) := by
    intro n l c c' z
    rw [List.map_map]
    rfl
  have bad : ∀ d z, lexDoc env.chars d = some z → parseProgram z = none → ∃ m, fromStr env d = .err (.parseError m) := by
    intro d z hd hz
    exact ⟨_, by simp only [fromStr, hd, hz]; rfl⟩
  have good : ∀ d c, fromStr env d = .ok c → ∃ z, lexDoc env.chars d = some z ∧ parseProgram z ≠ none := by
    intro d c hc
    cases hl : lexDoc env.chars d with
    | none =>
      simp only [fromStr, hl] at hc
      split at hc <;> cases hc
    | some z =>
      refine ⟨z, rfl, fun hz => ?_⟩
      obtain ⟨m, hm⟩ := bad d z hl hz
      rw [hc] at hm
      cases hm
  cases hl : lexDoc env.chars post with
  | none =>
    have n1 := h3.2 hl
    have n2 := h3'.2 hl
    constructor
    · intro c hc
      obtain ⟨z, hz, -⟩ := good _ c hc
      rw [n1] at hz; cases hz
    · intro c hc
      obtain ⟨z, hz, -⟩ := good _ c hc
      rw [n2] at hz; cases hz
  | some y =>
    cases hu : lexDoc env.chars (pre ++ post) with
    | none => rw [h3.1 hu] at hl; cases hl
    | some u =>
    cases hw : lexDoc env.chars (pre' ++ post) with
    | none => rw [h3'.1 hw] at hl; cases hl
    | some w =>
      rw [yielded_of_lexDoc hu, yielded_of_lexDoc hl] at h1
      rw [yielded_of_lexDoc hu] at h2
      rw [yielded_of_lexDoc hw, yielded_of_lexDoc hl] at h1'
      rw [yielded_of_lexDoc hw] at h2'
      have eu : u.map (·.tok) = ts ++ y.map (·.tok) := by
        rw [h1, List.map_append, h2, reloc]
      have ew : w.map (·.tok) = ts' ++ y.map (·.tok) := by
        rw [h1', List.map_append, h2', reloc]
      rcases hn u w _ eu ew with h | h
      · constructor
        · intro c hc
          obtain ⟨z, hz, hn⟩ := good _ c hc
          rw [hu] at hz; cases hz
          exact absurd h hn
        · intro c _; exact bad _ u hu h
      · constructor
        · intro c _; exact bad _ w hw h
        · intro c hc
          obtain ⟨z, hz, hn⟩ := good _ c hc
          rw [hw] at hz; cases hz
          exact absurd h hn

/-- C88 on documents: two texts, read by the lexer up to the same rest `post`, the one as `ts` and the keyword, the other
as `ts` and a word instead.  If one of the two documents has a contract, the other is a syntax error. -/
theorem C88_document (env : Env) (pre pre' post : Str) (ts : List Token) (k x : Token) (hk : k ∈ guarded) (hx : x.word = true)
    (he : ¬ Excepted k x) (hb : Boundary env.chars pre (ts ++ [k]) post) (hb' : Boundary env.chars pre' (ts ++ [x]) post) :
    (∀ c, fromStr env (pre ++ post) = .ok c → ∃ m, fromStr env (pre' ++ post) = .err (.parseError m)) ∧
    (∀ c, fromStr env (pre' ++ post) = .ok c → ∃ m, fromStr env (pre ++ post) = .err (.parseError m)) := by
  refine either_document env pre pre' post _ _ hb hb' fun u w b hu hw => ?_
  exact C88_tokens u w ts b k x hk hx he (by simpa using hu) (by simpa using hw)

/-- For each of the other keywords: a place where it may be mistaken; the keyword, the text before, the word, the text
behind. -/
def mistakes : List (Token × Str × Str × Str) :=
  [(.forall_, str! "scilla_version 0 contract C () transition T () ", str! "al", str! " xs p end"),
   (.builtin, str! "scilla_version 0 contract C () transition T () x = ", str! "bultin", str! " add a b end"),
   (.library, str! "scilla_version 0 import A ", str! "Library", str! " B contract C ()"),
   (.import_, str! "scilla_version 0 import A ", str! "Import", str! " B contract C ()"),
   (.send, str! "scilla_version 0 contract C () transition T () ", str! "sned", str! " m end"),
   (.event, str! "scilla_version 0 contract C () transition T () ", str! "evnt", str! " m end"),
   (.accept, str! "scilla_version 0 contract C () transition T () ", str! "acept", str! " end"),
   (.throw, str! "scilla_version 0 contract C () transition T () ", str! "trow", str! " e end"),
   (.map, str! "scilla_version 0 contract C () transition T () x = fun (y : ", str! "Mpa", str! " Uint32 Uint32) => z end"),
   (.type, str! "scilla_version 0 library L type T = | A of B ", str! "Type", str! " U contract C ()"),
   (.as_, str! "scilla_version 0 import A ", str! "As", str! " B contract C ()"),
   (.contract, str! "scilla_version 0 contract C (a : ByStr20 with ", str! "_contract", str! " end)")]

/-- C88: all keywords are on one of the two lists, and those on the second, and the exception on the first, may really be
mistaken: both documents are accepted. -/
theorem C88_loose :
    (∀ t ∈ fileTerminals, (t.text.head?.any Char.isAlpha) = true → t ∈ guarded ∨ t ∈ loose ∨ t.word = true) ∧
    mistakes.map (·.1) = loose ++ [.contract] ∧
    ∀ m ∈ mistakes, (∃ c, fromStr demoEnv (m.2.1 ++ (m.1.text ++ m.2.2.2)) = .ok c) ∧
      (∃ c, fromStr demoEnv (m.2.1 ++ (m.2.2.1 ++ m.2.2.2)) = .ok c) ∧
      ∃ x : Token, x.word = true ∧ lexToks demoU m.2.2.1 = some [x] := by
  refine ⟨?_, rfl, ?_⟩
  · have h : (fileTerminals.all fun t => !(t.text.head?.any Char.isAlpha) || guarded.contains t || loose.contains t || t.word) = true := by
      decide +kernel
    intro t ht ha
    have := List.all_eq_true.1 h t ht
    simpa [ha, or_assoc] using this
  · have ok : ∀ d, (match fromStr demoEnv d with | .ok _ => true | _ => false) = true → ∃ c, fromStr demoEnv d = .ok c := by
      intro d h
      cases e : fromStr demoEnv d with
      | ok c => exact ⟨c, rfl⟩
      | _ => rw [e] at h; cases h
    have h : (mistakes.all fun m => (match fromStr demoEnv (m.2.1 ++ (m.1.text ++ m.2.2.2)) with | .ok _ => true | _ => false) &&
        (match fromStr demoEnv (m.2.1 ++ (m.2.2.1 ++ m.2.2.2)) with | .ok _ => true | _ => false) &&
        (match lexToks demoU m.2.2.1 with | some [x] => x.word | _ => false)) = true := by decide +kernel
    intro m hm
    have := List.all_eq_true.1 h m hm
    simp only [Bool.and_eq_true] at this
    refine ⟨ok _ this.1.1, ok _ this.1.2, ?_⟩
    have h3 := this.2
    split at h3
    · rename_i x e; exact ⟨x, h3, e⟩
    · cases h3

/-- The premises are met: `field` and `feild`. -/
def typoPre : Str := str! "scilla_version 0 library L type A = | B of C contract C (o : ByStr20) with x => field f : Uint32 = Uint32 0 "
def typoPost : Str := str! " g : Map ByStr20 Uint32 = Emp ByStr20 Uint32 transition T () accept end"

theorem C88_witness : ∃ ts, Token.field ∈ guarded ∧ (Token.identifier (str! "feild")).word = true ∧
    ¬ Excepted .field (.identifier (str! "feild")) ∧
    Boundary demoU (typoPre ++ str! "field") (ts ++ [.field]) typoPost ∧
    Boundary demoU (typoPre ++ str! "feild") (ts ++ [.identifier (str! "feild")]) typoPost ∧
    ∃ c, fromStr demoEnv ((typoPre ++ str! "field") ++ typoPost) = .ok c := by
  have key : ∀ (n : Nat) (pre post : Str) (ts : List Token),
      ((callsN demoU n (.init (pre ++ post))).map fun r => (r.1, r.2.rest)) = some (ts, post) → Boundary demoU pre ts post := by
    intro n pre post ts h
    simp only [Option.map_eq_some_iff, Prod.mk.injEq] at h
    obtain ⟨⟨ts, σ⟩, h, rfl, e⟩ := h
    exact ⟨σ, callsN_calls demoU n _ _ _ h, e⟩
  refine ⟨((callsN demoU 28 (.init (typoPre ++ str! "field" ++ typoPost))).map (·.1)).getD [],
    by decide, rfl, (fun h => by cases h.1), key 29 _ _ _ (by decide +kernel), key 29 _ _ _ (by decide +kernel), ?_⟩
  have h : (match fromStr demoEnv ((typoPre ++ str! "field") ++ typoPost) with | .ok _ => true | _ => false) = true := by
    decide +kernel
  cases e : fromStr demoEnv ((typoPre ++ str! "field") ++ typoPost) with
  | ok c => exact ⟨c, rfl⟩
  | _ => rw [e] at h; cases h

end Verif
