import Verif.Proofs.Separators
/-
`,` is told from `field`, from `;` and from the words that stand in types.
-/
namespace Verif.LR

/-- the words that stand in types, and `;` -/
def neutral : List Nat := [2, 37, 50, 51, 52, 53, 55, 56, 57, 58]

/-- `,` and `field`: behind a `,` a block is open, and before a `field` that is behind no `,` none -/
theorem codes_comma_field {u v : List Nat} (ha : Der lrRules [.n 18] (u ++ 12 :: v)) (hb : Der lrRules [.n 18] (u ++ 38 :: v)) :
    False := by
  obtain ⟨s, hs, h1⟩ := Counts.sentence_reads (M := levels) (l := [0, 2]) levels_small (by decide) levels_fits (by decide +kernel) ha
  obtain ⟨s', -, h2⟩ := Counts.sentence_reads (M := levels) (l := [0, 2]) levels_small (by decide) levels_fits (by decide +kernel) hb
  rw [Counts.reads_append, Option.bind_eq_some_iff] at h1 h2
  obtain ⟨⟨q, d⟩, h3, h4⟩ := h1
  obtain ⟨c, h5, h6⟩ := h2
  rw [h3] at h5
  cases h5
  simp only [Counts.reads, Option.bind_eq_some_iff, Counts.read, Option.map_eq_some_iff] at h4 h6
  obtain ⟨_, ⟨p, h7, rfl⟩, h8⟩ := h4
  obtain ⟨_, ⟨p', h9, rfl⟩, -⟩ := h6
  by_cases hq1 : q = 1
  · subst hq1; simp [levels] at h7
  by_cases hq3 : q = 3
  · subst hq3; simp [levels] at h7
  simp [levels, hq1, hq3] at h7 h9
  obtain ⟨rfl, -⟩ := h9
  subst h7
  cases v with
  | nil => cases h8; simp at hs
  | cons t v => simp [Counts.reads, Counts.read, levels, Turn.on] at h8

/-- `,` and then `field`: a block is open; another word and then `field`: none -/
theorem codes_comma_then {u v : List Nat} {j : Nat} (hj : j ∈ neutral) (ha : Der lrRules [.n 18] (u ++ 12 :: 38 :: v))
    (hb : Der lrRules [.n 18] (u ++ j :: 38 :: v)) : False := by
  obtain ⟨s, -, h1⟩ := Counts.sentence_reads (M := levels) (l := [0, 2]) levels_small (by decide) levels_fits (by decide +kernel) ha
  obtain ⟨s', -, h2⟩ := Counts.sentence_reads (M := levels) (l := [0, 2]) levels_small (by decide) levels_fits (by decide +kernel) hb
  rw [Counts.reads_append, Option.bind_eq_some_iff] at h1 h2
  obtain ⟨⟨q, d⟩, h3, h4⟩ := h1
  obtain ⟨c, h5, h6⟩ := h2
  rw [h3] at h5
  cases h5
  by_cases hq1 : q = 1
  · subst hq1; simp [Counts.reads, Counts.read, levels] at h4
  by_cases hq3 : q = 3
  · subst hq3; simp [Counts.reads, Counts.read, levels] at h4
  have e12 : levels.read (q, d) 12 = some (1, d) := by simp [Counts.read, levels, hq1, hq3, Turn.on]
  have ej : levels.read (q, d) j = some (0, d) := by
    simp only [neutral, List.mem_cons, List.not_mem_nil, or_false] at hj
    rcases hj with rfl | rfl | rfl | rfl | rfl | rfl | rfl | rfl | rfl | rfl <;> simp [Counts.read, levels, hq1, Turn.on]
  simp only [Counts.reads, e12, ej, Option.bind_some] at h4 h6
  cases d with
  | zero => simp [Counts.read, levels] at h4
  | succ d => simp [Counts.read, levels] at h6

/-- after the terminals `x` and `y` and one more, other than `field`, the sixteenth automaton has nothing in common -/
def partedThen (i j : Nat) : Bool :=
  (List.range 98).all fun q => (List.range 59).all fun t =>
    t == 38 || sixteenthPass.lost (sixteenthPass.step (sixteenthPass.step q i) t) (sixteenthPass.step (sixteenthPass.step q j) t)

set_option maxRecDepth 100000 in
theorem neutral_parted : (neutral.all fun j => partedThen 12 j) = true := by decide +kernel

/-- `,` is not written for a word that stands in types, nor for `;` -/
theorem codes_comma {u v : List Nat} {j : Nat} (hj : j ∈ neutral) (hv : ∀ t ∈ v, t < 59)
    (ha : Der lrRules [.n 18] (u ++ 12 :: v)) (hb : Der lrRules [.n 18] (u ++ j :: v)) : False := by
  cases v with
  | nil =>
    obtain ⟨s, hs, h1⟩ := Counts.sentence_reads (M := levels) (l := [0, 2]) levels_small (by decide) levels_fits (by decide +kernel) ha
    rw [Counts.reads_append, Option.bind_eq_some_iff] at h1
    obtain ⟨⟨q, d⟩, -, h4⟩ := h1
    simp only [Counts.reads, Option.bind_some, Counts.read, Option.bind_eq_some_iff, Option.map_eq_some_iff] at h4
    obtain ⟨_, ⟨p, h7, rfl⟩, h8⟩ := h4
    have e : s = p.1 := (congrArg Prod.fst (Option.some.inj h8)).symm
    by_cases hq1 : q = 1
    · subst hq1; simp [levels] at h7
    by_cases hq3 : q = 3
    · subst hq3; simp [levels] at h7
    simp [levels, hq1, hq3] at h7
    subst h7
    subst e
    simp at hs
  | cons t v =>
    by_cases ht : t = 38
    · subst ht; exact codes_comma_then hj ha hb
    · refine Passes.apart sixteenthPass_small (by decide) sixteenthPass_fits sixteenthPass_lost (by decide +kernel)
        (u := u) (x := [12, t]) (y := [j, t]) (v := v) (fun t h => hv t (List.mem_cons_of_mem _ h)) ?_ ha hb
      have h := List.all_eq_true.1 (List.all_eq_true.1 (List.all_eq_true.1 neutral_parted j hj)
        (sixteenthPass.run 1 u) (List.mem_range.2 (Passes.run_lt sixteenthPass_small (by decide) u 1 (by decide)))) t
        (List.mem_range.2 (hv t (List.mem_cons_self ..)))
      rw [Bool.or_eq_true, beq_iff_eq] at h
      exact h.resolve_left ht

end Verif.LR
