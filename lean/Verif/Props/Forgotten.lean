import Verif.Props.Keywords
/-
C89  A forgotten or repeated keyword is noticed.
-/
namespace Verif
open Verif.LR

/-! ### Finite automata -/

set_option maxRecDepth 100000 in
theorem first_more : (List.range 47).all (fun q => firstPass.lost (firstPass.step q 44) q) = true := by decide +kernel
set_option maxRecDepth 100000 in
theorem second_more : (List.range 9).all (fun q => secondPass.lost (secondPass.step q 46) q) = true := by decide +kernel
set_option maxRecDepth 100000 in
theorem third_more : (List.range 20).all (fun q => thirdPass.lost (thirdPass.step q 49) q) = true := by decide +kernel
set_option maxRecDepth 100000 in
theorem fourth_more : (List.range 11).all (fun q => q == 10 || fourthPass.lost (fourthPass.step q 26) q) = true := by decide +kernel
set_option maxRecDepth 100000 in
theorem fifth_more : (List.range 15).all (fun q => q == 4 || fifthPass.lost (fifthPass.step q 38) q) = true := by decide +kernel
set_option maxRecDepth 100000 in
theorem sixth_more : (List.range 8).all (fun q => sixthPass.lost (sixthPass.step q 28) q) = true := by decide +kernel
set_option maxRecDepth 100000 in
theorem seventh_more : (List.range 12).all (fun q => seventhPass.lost (seventhPass.step q 41) q) = true := by decide +kernel
set_option maxRecDepth 100000 in
theorem eighth_more : (List.range 6).all (fun q => [31, 32].all fun i => eighthPass.lost (eighthPass.step q i) q) = true := by
  decide +kernel

/-- the state 10 of the fourth automaton is behind `=`, `=>`, `in` and `with` only -/
theorem fourth_before : (List.range 11).all (fun q => (List.range 59).all fun a => fourthPass.step q a != 10 ||
    [13, 15, 27, 29].contains a) = true := by decide +kernel
/-- the state 4 of the fifth automaton is behind a comma only -/
theorem fifth_before : (List.range 15).all (fun q => (List.range 59).all fun a => fifthPass.step q a != 4 || a == 12) = true := by
  decide +kernel

/-- Where an automaton is in a state other than the first, there is a last terminal. -/
theorem last_step {A : Passes} (hs : A.small = true) (h1 : 1 < A.size) {u : List Nat} {q : Nat} (hq : q ≠ 1) (h : A.run 1 u = q) :
    ∃ u' a, u = u' ++ [a] ∧ A.run 1 u' < A.size ∧ A.step (A.run 1 u') a = q := by
  rcases List.eq_nil_or_concat u with rfl | ⟨u', a, rfl⟩
  · exact absurd h.symm hq
  · refine ⟨u', a, List.concat_eq_append, Passes.run_lt hs (by omega) u' 1 h1, ?_⟩
    rw [← h, List.concat_eq_append]
    simp [Passes.run, List.foldl_append]

/-! ### `in` -/

theorem drop_in {u v : List Nat} (ha : Der lrRules [.n 18] (u ++ 27 :: v)) (hb : Der lrRules [.n 18] (u ++ v)) : False := by
  obtain ⟨s, -, h1⟩ := Counts.sentence_reads (M := letIn) (l := [0, 1]) letIn_small (by decide) letIn_fits (by decide +kernel) ha
  obtain ⟨s', -, h2⟩ := Counts.sentence_reads (M := letIn) (l := [0, 1]) letIn_small (by decide) letIn_fits (by decide +kernel) hb
  rw [Counts.reads_append, Option.bind_eq_some_iff] at h1 h2
  obtain ⟨⟨q, d⟩, h3, h4⟩ := h1
  obtain ⟨c, h5, h6⟩ := h2
  rw [h3] at h5
  cases h5
  have e27 : ∃ d', d = d' + 1 ∧ letIn.read (q, d) 27 = some (1, d') := by
    simp only [Counts.reads, Option.bind_eq_some_iff] at h4
    obtain ⟨c, h, -⟩ := h4
    cases d with
    | zero => simp [Counts.read, letIn] at h
    | succ d => exact ⟨d, rfl, by simp [Counts.read, letIn, Turn.on]⟩
  obtain ⟨d, rfl, e27⟩ := e27
  simp only [Counts.reads, e27, Option.bind_some] at h4 h6
  cases v with
  | nil => cases h6
  | cons a v =>
    simp only [Counts.reads, Option.bind_eq_some_iff] at h4 h6
    obtain ⟨c, h7, h8⟩ := h4
    obtain ⟨c', h9, h10⟩ := h6
    have : c' = (c.1, c.2 + 1) := by
      have e : (d + 1 == 0) = false := by simp
      simp only [Counts.read, letIn, Option.map_eq_some_iff, e] at h7 h9
      obtain ⟨p, h7, rfl⟩ := h7
      obtain ⟨p', h9, rfl⟩ := h9
      by_cases h26 : a = 26
      · subst h26
        by_cases hq : q = 1
        · simp [hq] at h7 h9
          subst h7 h9
          simp [Turn.on]
        · simp [hq] at h9
      · simp only [h26, if_false, Bool.false_eq_true] at h7 h9
        by_cases h27 : a = 27
        · simp only [h27, if_true] at h7 h9
          cases h9
          by_cases hd : d = 0
          · subst hd; simp at h7
          · have : (d == 0) = false := by simpa using hd
            simp only [this, Bool.false_eq_true, if_false] at h7
            cases h7
            simp only [Turn.on, Prod.mk.injEq, true_and]
            omega
        · simp only [h27, if_false] at h7 h9
          rw [h7] at h9
          cases h9
          split at h7 <;> (cases h7; rfl)
    subst this
    have := letIn_more v _ _ h8 h10
    simp at this

/-! ### `let` -/

theorem drop_let {u v : List Nat} (hu : ∀ t ∈ u, t < 59) (hv : ∀ t ∈ v, t < 59) (hn : ∀ a v', v = a :: v' → a = 55)
    (hne : v ≠ []) (ha : Der lrRules [.n 18] (u ++ 26 :: v)) (hb : Der lrRules [.n 18] (u ++ v)) : False := by
  by_cases h10 : fourthPass.run 1 u = 10
  · -- behind `=`, `=>`, `in` or `with`
    obtain ⟨u', a, rfl, hq, hst⟩ := last_step fourthPass_small (by decide) (by decide) h10
    have h1 := List.all_eq_true.1 (List.all_eq_true.1 fourth_before _ (List.mem_range.2 hq)) a (List.mem_range.2 (hu a (by simp)))
    rw [hst] at h1
    simp only [bne_self_eq_false, Bool.false_or, List.contains_iff_mem] at h1
    obtain ⟨s, -, h1'⟩ := Counts.sentence_reads (M := letIn) (l := [0, 1]) letIn_small (by decide) letIn_fits (by decide +kernel) ha
    obtain ⟨s', -, h2'⟩ := Counts.sentence_reads (M := letIn) (l := [0, 1]) letIn_small (by decide) letIn_fits (by decide +kernel) hb
    rw [Counts.reads_append, Option.bind_eq_some_iff] at h1' h2'
    obtain ⟨⟨q, d⟩, h3, h4⟩ := h1'
    obtain ⟨c, h5, h6⟩ := h2'
    rw [h3] at h5
    cases h5
    have hq1 : q = 1 := by
      rw [Counts.reads_append, Option.bind_eq_some_iff] at h3
      obtain ⟨⟨q0, d0⟩, -, h3⟩ := h3
      simp only [Counts.reads, Option.bind_eq_some_iff, Counts.read, Option.map_eq_some_iff] at h3
      obtain ⟨_, ⟨p, h3, rfl⟩, h3'⟩ := h3
      simp only [Option.some.injEq, Prod.mk.injEq] at h3'
      rw [← h3'.1]
      simp only [List.mem_cons, List.not_mem_nil, or_false] at h1
      rcases h1 with rfl | rfl | rfl | rfl <;> simp [letIn] at h3
      · subst h3; rfl
      · subst h3; rfl
      · obtain ⟨-, rfl⟩ := h3; rfl
      · subst h3; rfl
    subst hq1
    cases v with
    | nil => exact hne rfl
    | cons x v =>
      have := hn x v rfl
      subst this
      have e1 : letIn.read (1, d) 26 = some (0, d + 1) := by simp [Counts.read, letIn, Turn.on]
      have e2 : ∀ s d, letIn.read (s, d) 55 = some (0, d) := by intro s d; simp [Counts.read, letIn, Turn.on]
      simp only [Counts.reads, e1, e2, Option.bind_some] at h4 h6
      have := letIn_more v _ _ h6 h4
      simp at this
  · have hq := Passes.run_lt fourthPass_small (by decide) u 1 (by decide)
    have h := List.all_eq_true.1 fourth_more _ (List.mem_range.2 hq)
    rw [Bool.or_eq_true, beq_iff_eq] at h
    exact Passes.one_more fourthPass_small (by decide) fourthPass_fits fourthPass_lost (by decide +kernel) hv (h.resolve_left h10) ha hb

/-! ### `field` -/

theorem drop_field {u v : List Nat} (hu : ∀ t ∈ u, t < 59) (hv : ∀ t ∈ v, t < 59)
    (hn : ∀ u' v' a, u = u' ++ [12] → v = a :: v' → a = 55) (hne : v ≠ [])
    (ha : Der lrRules [.n 18] (u ++ 38 :: v)) (hb : Der lrRules [.n 18] (u ++ v)) : False := by
  by_cases h4 : fifthPass.run 1 u = 4
  · -- behind a comma
    obtain ⟨u', a, rfl, hq, hst⟩ := last_step fifthPass_small (by decide) (by decide) h4
    have h1 := List.all_eq_true.1 (List.all_eq_true.1 fifth_before _ (List.mem_range.2 hq)) a (List.mem_range.2 (hu a (by simp)))
    rw [hst] at h1
    simp only [bne_self_eq_false, Bool.false_or, beq_iff_eq] at h1
    subst h1
    obtain ⟨s, -, h1'⟩ := Counts.sentence_reads (M := commas) (l := [0, 1]) commas_small (by decide) commas_fits (by decide +kernel) ha
    obtain ⟨s', -, h2'⟩ := Counts.sentence_reads (M := commas) (l := [0, 1]) commas_small (by decide) commas_fits (by decide +kernel) hb
    rw [Counts.reads_append, Option.bind_eq_some_iff] at h1' h2'
    obtain ⟨⟨q, d⟩, h3, h4⟩ := h1'
    obtain ⟨c, h5, h6⟩ := h2'
    rw [h3] at h5
    cases h5
    have hq2 : q = 2 := by
      rw [Counts.reads_append, Option.bind_eq_some_iff] at h3
      obtain ⟨⟨q0, d0⟩, -, h3⟩ := h3
      simp only [Counts.reads, Option.bind_eq_some_iff, Counts.read, Option.map_eq_some_iff] at h3
      obtain ⟨_, ⟨p, h3, rfl⟩, h3'⟩ := h3
      simp only [Option.some.injEq, Prod.mk.injEq] at h3'
      rw [← h3'.1]
      simp [commas] at h3
      subst h3; rfl
    subst hq2
    cases v with
    | nil => exact hne rfl
    | cons x v =>
      have := hn u' v x rfl rfl
      subst this
      simp only [Counts.reads, Option.bind_eq_some_iff, Counts.read, Option.map_eq_some_iff] at h4 h6
      obtain ⟨_, ⟨p, h7, -⟩, -⟩ := h4
      obtain ⟨_, ⟨p', h8, -⟩, -⟩ := h6
      cases d with
      | zero => simp [commas] at h7
      | succ d => simp [commas] at h8
  · have hq := Passes.run_lt fifthPass_small (by decide) u 1 (by decide)
    have h := List.all_eq_true.1 fifth_more _ (List.mem_range.2 hq)
    rw [Bool.or_eq_true, beq_iff_eq] at h
    exact Passes.one_more fifthPass_small (by decide) fifthPass_fits fifthPass_lost (by decide +kernel) hv (h.resolve_left h4) ha hb

/-! ### `with` behind `)` -/

theorem drop_with {u v : List Nat} (hn : ∀ a v', v = a :: v' → a ∉ [29, 38, 34, 48]) (hne : v ≠ [])
    (ha : Der lrRules [.n 18] (u ++ [9] ++ 29 :: v)) (hb : Der lrRules [.n 18] (u ++ [9] ++ v)) : False := by
  obtain ⟨s, -, h1⟩ := Counts.sentence_reads (M := header) (l := [7, 8, 9]) header_small (by decide) header_fits (by decide +kernel) ha
  obtain ⟨s', -, h2⟩ := Counts.sentence_reads (M := header) (l := [7, 8, 9]) header_small (by decide) header_fits (by decide +kernel) hb
  rw [Counts.reads_append, Option.bind_eq_some_iff] at h1 h2
  obtain ⟨⟨q, d⟩, h3, h4⟩ := h1
  obtain ⟨c, h5, h6⟩ := h2
  rw [h3] at h5
  cases h5
  cases v with
  | nil => exact hne rfl
  | cons x v =>
    have hx := hn x v rfl
    simp only [Counts.reads, Option.bind_eq_some_iff, Counts.read, Option.map_eq_some_iff] at h4 h6
    obtain ⟨_, ⟨p, h7, -⟩, -⟩ := h4
    obtain ⟨_, ⟨p', h8, -⟩, -⟩ := h6
    have hq := header_paren u h3
    simp only at hq
    rcases hq with rfl | rfl | rfl | rfl | rfl
    · simp [header] at h7
    · simp [header] at h7
    · simp [header] at h7
    · simp only [List.mem_cons, List.not_mem_nil, or_false, not_or] at hx
      simp [header, hx] at h8
    · simp [header] at h7

/-! ### The theorems -/

theorem next_code {u v : List Nat} {i j : Nat} (h : Der lrRules [.n 18] (u ++ i :: j :: v)) :
    (followers firstSets lastSets rulePairs i).testBit j = true := by
  refine (codes_follow i j).1 ⟨u, v, ?_⟩
  have e : num .Program = 18 := by decide +kernel
  rw [e, ← lrRules_eq]
  exact h

set_option maxRecDepth 100000 in
theorem next_codes : ((List.range 59).all fun j => (!(followers firstSets lastSets rulePairs 26).testBit j || j == 55) &&
    (!((followers firstSets lastSets rulePairs 12).testBit j && (followers firstSets lastSets rulePairs 38).testBit j) || j == 55) &&
    (!(followers firstSets lastSets rulePairs 29).testBit j || ![29, 38, 34, 48].contains j)) = true := by decide +kernel

/-- C89: a forgotten keyword.  Of two token sequences, one of which is the other without one of these keywords, at most
one is a program. -/
theorem C89_tokens (u w : List STok) (a b : List Token) (k : Token) (hk : k ∈ needed)
    (hu : u.map (·.tok) = a ++ k :: b) (hw : w.map (·.tok) = a ++ b) :
    parseProgram u = none ∨ parseProgram w = none := by
  by_cases hd : k ∈ delimiters
  · exact (C84_one_more w u a b k hd hw hu).symm
  cases hp : parseProgram u with
  | none => exact .inl rfl
  | some p =>
  cases hq : parseProgram w with
  | none => exact .inr rfl
  | some q =>
  exfalso
  obtain ⟨c, hc, hdu⟩ := program_codes hp
  obtain ⟨c', hc', hdw⟩ := program_codes hq
  have inj : ∀ {l l' : List Nat}, l.map some = l'.map some → l = l' := fun h =>
    List.map_inj_right (fun _ _ => Option.some.inj) |>.1 h
  rw [hu, List.map_append, List.map_cons] at hc
  rw [hw, List.map_append] at hc'
  obtain ⟨cu, c1, rfl, h1, h2⟩ := List.map_eq_append_iff.1 hc.symm
  obtain ⟨i, cv, rfl, h3, h4⟩ := List.map_eq_cons_iff.1 h2
  obtain ⟨cu', cv', rfl, h1', h4'⟩ := List.map_eq_append_iff.1 hc'.symm
  have e1 := inj (h1'.trans h1.symm)
  have e2 := inj (h4'.trans h4.symm)
  subst e1 e2
  have lt : ∀ (l : List Nat) (ts : List Token), l.map some = ts.map code → ∀ t ∈ l, t < 59 := by
    intro l ts h t ht
    have : some t ∈ ts.map code := by rw [← h]; exact List.mem_map.2 ⟨t, ht, rfl⟩
    obtain ⟨y, -, hy⟩ := List.mem_map.1 this
    exact code_lt hy
  have hv := lt _ _ h4
  have hlu := lt _ _ h1
  have hne : k.kind ∉ lastTokens → cv' ≠ [] := by
    rintro hl rfl
    have hb : b = [] := by
      cases b with
      | nil => rfl
      | cons x b => simp at h4
    subst hb
    refine hl ((C87_last k).1 ⟨a, ?_⟩)
    rw [← hu]
    exact (C59_program u).1 ⟨p, hp⟩
  have drop : ∀ {A : Passes}, A.small = true → 1 < A.size → A.fits lrRules = true → A.keepsLost 59 = true →
      A.behind 1 (.n 18) = A.final → A.lost (A.step (A.run 1 cu') i) (A.run 1 cu') = true → False :=
    fun hs h1 hf hl hfin h => Passes.one_more hs h1 hf hl hfin hv h hdu hdw
  simp only [needed, List.mem_cons, List.not_mem_nil, or_false] at hk
  rcases hk with rfl | rfl | rfl | rfl | rfl | rfl | rfl | rfl | rfl | rfl | rfl | rfl | rfl | rfl
  · -- `scilla_version`
    cases (show some i = some 44 from h3)
    exact drop (A := firstPass) firstPass_small (by decide) firstPass_fits firstPass_lost (by decide +kernel)
      (List.all_eq_true.1 first_more _ (List.mem_range.2 (Passes.run_lt firstPass_small (by decide) cu' 1 (by decide))))
  · exact absurd (by decide) hd
  · exact absurd (by decide) hd
  · exact absurd (by decide) hd
  · -- `let`
    cases (show some i = some 26 from h3)
    refine drop_let hlu hv ?_ (hne (by decide)) hdu hdw
    rintro x v' rfl
    have h := List.all_eq_true.1 next_codes x (List.mem_range.2 (hv x (by simp)))
    have h' := next_code hdu
    rw [h'] at h
    simp only [Bool.not_true, Bool.false_or, Bool.and_eq_true, beq_iff_eq] at h
    exact h.1.1
  · -- `in`
    cases (show some i = some 27 from h3)
    exact drop_in hdu hdw
  · -- `match`
    cases (show some i = some 28 from h3)
    exact drop (A := sixthPass) sixthPass_small (by decide) sixthPass_fits sixthPass_lost (by decide +kernel)
      (List.all_eq_true.1 sixth_more _ (List.mem_range.2 (Passes.run_lt sixthPass_small (by decide) cu' 1 (by decide))))
  · -- `with`
    cases (show some i = some 29 from h3)
    obtain ⟨s, s1, s2, k1, k2, k3, k4⟩ := C84_replace u w p q hp hq a [.with_] [] b (by simpa using hu) (by simpa using hw)
    simp only [Open.reads, Option.some.injEq] at k3
    subst k3
    simp only [Open.reads, Option.bind_eq_some_iff] at k2
    obtain ⟨s3, k2, k5⟩ := k2
    cases k5
    obtain ⟨par, cl⟩ := s
    cases par with
    | false =>
      simp only [Open.read, Bool.false_eq_true, if_false, Option.some.injEq] at k2
      subst k2
      have := congrArg List.length k4
      simp at this
    | true =>
      have hlast : ∃ a', a = a' ++ [.closeParen] := by
        rcases List.eq_nil_or_concat a with rfl | ⟨a', t, rfl⟩
        · simp [Open.reads] at k1
        · refine ⟨a', ?_⟩
          rw [List.concat_eq_append] at k1 ⊢
          rw [Open.reads_append, Option.bind_eq_some_iff] at k1
          obtain ⟨s4, -, k6⟩ := k1
          simp only [Open.reads, Option.bind_eq_some_iff] at k6
          obtain ⟨s5, k6, k7⟩ := k6
          cases k7
          rw [read_paren k6]
      obtain ⟨a', rfl⟩ := hlast
      have h9 : ∃ u', cu' = u' ++ [9] := by
        rw [List.map_append] at h1
        obtain ⟨u', l, rfl, -, hl⟩ := List.map_eq_append_iff.1 h1
        refine ⟨u', ?_⟩
        have : l.map some = [some 9] := hl.trans rfl
        rw [inj (l' := [9]) this]
      obtain ⟨u', rfl⟩ := h9
      refine drop_with ?_ (hne (by decide)) hdu hdw
      rintro x v' rfl hx
      have h := List.all_eq_true.1 next_codes x (List.mem_range.2 (hv x (by simp)))
      have h' := next_code hdu
      rw [h'] at h
      simp only [Bool.not_true, Bool.false_or, Bool.and_eq_true, Bool.not_eq_true', List.contains_eq_mem,
        decide_eq_false_iff_not] at h
      exact h.2 hx
  · -- `fun`
    cases (show some i = some 31 from h3)
    exact drop (A := eighthPass) eighthPass_small (by decide) eighthPass_fits eighthPass_lost (by decide +kernel)
      (List.all_eq_true.1 (List.all_eq_true.1 eighth_more _
        (List.mem_range.2 (Passes.run_lt eighthPass_small (by decide) cu' 1 (by decide)))) 31 (by decide))
  · -- `tfun`
    cases (show some i = some 32 from h3)
    exact drop (A := eighthPass) eighthPass_small (by decide) eighthPass_fits eighthPass_lost (by decide +kernel)
      (List.all_eq_true.1 (List.all_eq_true.1 eighth_more _
        (List.mem_range.2 (Passes.run_lt eighthPass_small (by decide) cu' 1 (by decide)))) 32 (by decide))
  · -- `of`
    cases (show some i = some 46 from h3)
    exact drop (A := secondPass) secondPass_small (by decide) secondPass_fits secondPass_lost (by decide +kernel)
      (List.all_eq_true.1 second_more _ (List.mem_range.2 (Passes.run_lt secondPass_small (by decide) cu' 1 (by decide))))
  · -- `Emp`
    cases (show some i = some 49 from h3)
    exact drop (A := thirdPass) thirdPass_small (by decide) thirdPass_fits thirdPass_lost (by decide +kernel)
      (List.all_eq_true.1 third_more _ (List.mem_range.2 (Passes.run_lt thirdPass_small (by decide) cu' 1 (by decide))))
  · -- `field`
    cases (show some i = some 38 from h3)
    refine drop_field hlu hv ?_ (hne (by decide)) hdu hdw
    rintro u' v' x rfl rfl
    have h := List.all_eq_true.1 next_codes x (List.mem_range.2 (hv x (by simp)))
    have h' := next_code hdu
    have h'' : (followers firstSets lastSets rulePairs 12).testBit x = true := next_code (u := u') (by simpa using hdw)
    rw [h', h''] at h
    simp only [Bool.and_self, Bool.not_true, Bool.false_or, Bool.and_eq_true, beq_iff_eq] at h
    exact h.1.2
  · -- `delete`
    cases (show some i = some 41 from h3)
    exact drop (A := seventhPass) seventhPass_small (by decide) seventhPass_fits seventhPass_lost (by decide +kernel)
      (List.all_eq_true.1 seventh_more _ (List.mem_range.2 (Passes.run_lt seventhPass_small (by decide) cu' 1 (by decide))))

/-- C89: a repeated keyword, whichever it is.  Of two token sequences, the one with a keyword and the other with the same
keyword twice, at most one is a program. -/
theorem C89_repeated (u w : List STok) (a b : List Token) (k : Token) (hk : k ∈ guarded ++ loose)
    (hu : u.map (·.tok) = a ++ k :: b) (hw : w.map (·.tok) = a ++ k :: k :: b) :
    parseProgram u = none ∨ parseProgram w = none := by
  by_cases hd : k = .end_
  · subst hd
    exact C84_one_more u w (a ++ [.end_]) b .end_ (by decide) (by simpa using hu) (by simpa using hw)
  · right
    cases hq : parseProgram w with
    | none => rfl
    | some q =>
      have h := C87_accepted w q hq a b k k hw
      have hall : ((guarded ++ loose).all fun k => k == .end_ || !decide (MayFollow k k)) = true := by decide +kernel
      have := List.all_eq_true.1 hall k hk
      simp only [Bool.or_eq_true, beq_iff_eq, Bool.not_eq_true', decide_eq_false_iff_not] at this
      exact absurd h (this.resolve_left hd)

/-- C89 on documents: two texts, read by the lexer up to the same rest `post`, the one as `ts` and the keyword, the other
as `ts` alone, or as `ts` and the keyword twice.  If one of the two documents has a contract, the other is a syntax
error. -/
theorem C89_document (env : Env) (pre pre' post : Str) (ts ts' : List Token) (k : Token)
    (h : (k ∈ needed ∧ ts' = ts) ∨ (k ∈ guarded ++ loose ∧ ts' = ts ++ [k, k]))
    (hb : Boundary env.chars pre (ts ++ [k]) post) (hb' : Boundary env.chars pre' ts' post) :
    (∀ c, fromStr env (pre ++ post) = .ok c → ∃ m, fromStr env (pre' ++ post) = .err (.parseError m)) ∧
    (∀ c, fromStr env (pre' ++ post) = .ok c → ∃ m, fromStr env (pre ++ post) = .err (.parseError m)) := by
  refine either_document env pre pre' post _ _ hb hb' fun u w b hu hw => ?_
  rcases h with ⟨hk, rfl⟩ | ⟨hk, rfl⟩
  · exact C89_tokens u w _ b k hk (by simpa using hu) hw
  · exact C89_repeated u w ts b k hk (by simpa using hu) (by simpa using hw)

/-- For each of the other keywords: a place where it may be left out; the keyword, the text before and the text behind. -/
def omissions : List (Token × Str × Str) :=
  [(.contract, str! "scilla_version 0 contract C (a : ByStr20 with ", str! " end)"),
   (.exists_, str! "scilla_version 0 contract C () transition T () x <- ", str! " m[k] end"),
   (.forall_, str! "scilla_version 0 contract C () transition T () ", str! " xs p end"),
   (.builtin, str! "scilla_version 0 contract C () transition T () x = ", str! " add a b end"),
   (.library, str! "scilla_version 0 import A ", str! " B contract C ()"),
   (.import_, str! "scilla_version 0 import A ", str! " B contract C ()"),
   (.send, str! "scilla_version 0 contract C () transition T () ", str! " m end"),
   (.event, str! "scilla_version 0 contract C () transition T () ", str! " m end"),
   (.accept, str! "scilla_version 0 contract C () transition T () ", str! " end"),
   (.throw, str! "scilla_version 0 contract C () transition T () ", str! " e end"),
   (.map, str! "scilla_version 0 contract C () transition T () x = fun (y : ", str! " Uint32 Uint32) => z end"),
   (.type, str! "scilla_version 0 library L type T = | A of B ", str! " U contract C ()"),
   (.as_, str! "scilla_version 0 import A ", str! " B contract C ()")]

/-- C89: all keywords are on one of the two lists, and those on the second may really be left out: both documents are
accepted. -/
theorem C89_idle :
    (∀ t ∈ fileTerminals, (t.text.head?.any Char.isAlpha) = true → t ∈ needed ∨ t ∈ idle ∨ t.word = true) ∧
    omissions.map (·.1) = idle ∧
    ∀ m ∈ omissions, (∃ c, fromStr demoEnv (m.2.1 ++ (m.1.text ++ m.2.2)) = .ok c) ∧
      (∃ c, fromStr demoEnv (m.2.1 ++ m.2.2) = .ok c) := by
  refine ⟨?_, rfl, ?_⟩
  · have h : (fileTerminals.all fun t => !(t.text.head?.any Char.isAlpha) || needed.contains t || idle.contains t || t.word) = true := by
      decide +kernel
    intro t ht ha
    have := List.all_eq_true.1 h t ht
    simpa [ha, or_assoc] using this
  · have ok : ∀ d, (match fromStr demoEnv d with | .ok _ => true | _ => false) = true → ∃ c, fromStr demoEnv d = .ok c := by
      intro d h
      cases e : fromStr demoEnv d with
      | ok c => exact ⟨c, rfl⟩
      | _ => rw [e] at h; cases h
    have h : (omissions.all fun m => (match fromStr demoEnv (m.2.1 ++ (m.1.text ++ m.2.2)) with | .ok _ => true | _ => false) &&
        (match fromStr demoEnv (m.2.1 ++ m.2.2) with | .ok _ => true | _ => false)) = true := by decide +kernel
    intro m hm
    have := List.all_eq_true.1 h m hm
    simp only [Bool.and_eq_true] at this
    exact ⟨ok _ this.1, ok _ this.2⟩

/-- The premises are met: the `with` of a contract's constraint, once, not at all and twice. -/
def forgetPre : Str := str! "scilla_version 0 library L type A = | B of C contract C (o : ByStr20 with contract end)"
def forgetPost : Str := str! " x => field f : Uint32 = Uint32 0 transition T () accept end"

theorem C89_witness : ∃ ts, Token.with_ ∈ needed ∧ Token.with_ ∈ guarded ++ loose ∧
    Boundary demoU (forgetPre ++ str! " with") (ts ++ [.with_]) forgetPost ∧
    Boundary demoU forgetPre ts forgetPost ∧
    Boundary demoU (forgetPre ++ str! " with with") (ts ++ [.with_, .with_]) forgetPost ∧
    ∃ c, fromStr demoEnv ((forgetPre ++ str! " with") ++ forgetPost) = .ok c := by
  have key : ∀ (n : Nat) (pre post : Str) (ts : List Token),
      ((callsN demoU n (.init (pre ++ post))).map fun r => (r.1, r.2.rest)) = some (ts, post) → Boundary demoU pre ts post := by
    intro n pre post ts h
    simp only [Option.map_eq_some_iff, Prod.mk.injEq] at h
    obtain ⟨⟨ts, σ⟩, h, rfl, e⟩ := h
    exact ⟨σ, callsN_calls demoU n _ _ _ h, e⟩
  refine ⟨((callsN demoU 21 (.init (forgetPre ++ forgetPost))).map (·.1)).getD [], by decide, by decide,
    key 22 _ _ _ (by decide +kernel), key 21 _ _ _ (by decide +kernel), key 23 _ _ _ (by decide +kernel), ?_⟩
  have h : (match fromStr demoEnv ((forgetPre ++ str! " with") ++ forgetPost) with | .ok _ => true | _ => false) = true := by
    decide +kernel
  cases e : fromStr demoEnv ((forgetPre ++ str! " with") ++ forgetPost) with
  | ok c => exact ⟨c, rfl⟩
  | _ => rw [e] at h; cases h

end Verif
