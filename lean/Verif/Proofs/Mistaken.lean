import Verif.Proofs.Punctuation
import Verif.Proofs.MistakenData
/-
An automaton for `&`, the counter for `=>` with what `type` adds to it, and one `=>` more or less.
-/
namespace Verif.LR

def fifteenthPass : Passes := ⟨47, fifteenthPassSteps, fifteenthPassSets, fifteenthPassDoomed, fifteenthPassFinal⟩

set_option maxRecDepth 100000 in
theorem fifteenthPass_fits : fifteenthPass.fits lrRules = true := by decide +kernel
set_option maxRecDepth 100000 in
theorem fifteenthPass_small : fifteenthPass.small = true := by decide +kernel
set_option maxRecDepth 100000 in
theorem fifteenthPass_lost : fifteenthPass.keepsLost 59 = true := by decide +kernel

/-- the reader of `=>` as before; and no `=>` is waited for where `type` (45) begins a definition -/
def definitions : Counts where
  size := 4
  move s t z := if t = 45 then if z then some (2, .stay) else none else arrows.move s t z
  table := definitionsTable

set_option maxRecDepth 100000 in
theorem definitions_fits : definitions.fits lrRules = true := by decide +kernel

theorem definitions_small : definitions.Small := by
  refine ⟨?_, by decide +kernel⟩
  intro s a z p h
  simp only [definitions] at h ⊢
  split at h
  · split at h
    · cases h; decide
    · cases h
  · exact arrows_small.1 s a z p h

/-- some more `=>` waited for: they never come -/
theorem arrows_many (n : Nat) (v : List Nat) : ∀ (s d : Nat) {c c' : Nat × Nat}, arrows.reads (s, d) v = some c →
    arrows.reads (s, d + (n + 1)) v = some c' → c'.2 = c.2 + (n + 1) := by
  induction v with
  | nil => intro s d c c' h h'; cases h; cases h'; rfl
  | cons a v ih =>
    intro s d c c' h h'
    simp only [Counts.reads, Option.bind_eq_some_iff, Counts.read, Option.map_eq_some_iff] at h h'
    obtain ⟨_, ⟨⟨s1, m1⟩, h1, rfl⟩, h2⟩ := h
    obtain ⟨_, ⟨⟨s2, m2⟩, h3, rfl⟩, h4⟩ := h'
    have key : s1 = s2 ∧ m2.on (d + (n + 1)) = m1.on d + (n + 1) := by
      by_cases h13 : a = 13
      · subst h13
        have e : (d + (n + 1) == 0) = false := by simp
        rw [e] at h3
        by_cases hd : d = 0
        · subst hd; simp [arrows] at h1
        · have e' : (d == 0) = false := by simpa using hd
          rw [e'] at h1
          simp [arrows] at h1 h3
          obtain ⟨rfl, rfl⟩ := h1
          obtain ⟨rfl, rfl⟩ := h3
          refine ⟨rfl, ?_⟩
          simp only [Turn.on]
          omega
      · rw [(arrows_move h13 _ (d == 0)).1, h1] at h3
        cases h3
        have := (arrows_move h13 _ (d == 0)).2 _ h1
        refine ⟨rfl, ?_⟩
        cases m1 with
        | stay => rfl
        | up => simp only [Turn.on]; omega
        | down => exact absurd rfl this
    obtain ⟨rfl, k2⟩ := key
    rw [k2] at h4
    exact ih _ _ h2 h4

/-- another terminal in the place of `=>`: one or two more `=>` are waited for -/
theorem codes_arrow {u v : List Nat} {j : Nat} (hj : j ∉ [9, 13, 28, 29, 45]) (ha : Der lrRules [.n 18] (u ++ 13 :: v))
    (hb : Der lrRules [.n 18] (u ++ j :: v)) : False := by
  obtain ⟨s, -, h1⟩ := Counts.sentence_reads (M := arrows) (l := [0, 1, 2, 3]) arrows_small (by decide) arrows_fits (by decide +kernel) ha
  obtain ⟨s', -, h2⟩ := Counts.sentence_reads (M := arrows) (l := [0, 1, 2, 3]) arrows_small (by decide) arrows_fits (by decide +kernel) hb
  rw [Counts.reads_append, Option.bind_eq_some_iff] at h1 h2
  obtain ⟨⟨q, d⟩, h3, h4⟩ := h1
  obtain ⟨c, h5, h6⟩ := h2
  rw [h3] at h5
  cases h5
  simp only [List.mem_cons, List.not_mem_nil, or_false, not_or] at hj
  have e13 : ∃ d', d = d' + 1 ∧ arrows.read (q, d) 13 = some (2 * (q / 2 % 2), d') := by
    simp only [Counts.reads, Option.bind_eq_some_iff] at h4
    obtain ⟨c, h, -⟩ := h4
    cases d with
    | zero => simp [Counts.read, arrows] at h
    | succ d => exact ⟨d, rfl, by simp [Counts.read, arrows, Turn.on]⟩
  obtain ⟨d, rfl, e13⟩ := e13
  have ej : ∃ n, arrows.read (q, d + 1) j = some (2 * (q / 2 % 2), d + (n + 1)) := by
    obtain ⟨j1, j2, j3, j4, j5⟩ := hj
    simp only [Counts.read, arrows, j1, j2, j3, j4, j5, if_false]
    split
    · exact ⟨1, rfl⟩
    · split
      · split
        · exact ⟨1, rfl⟩
        · exact ⟨0, rfl⟩
      · exact ⟨0, rfl⟩
  obtain ⟨n, ej⟩ := ej
  simp only [Counts.reads, e13, ej, Option.bind_some] at h4 h6
  have := arrows_many n _ _ _ h4 h6
  simp at this

/-- `type` in the place of `=>`: there is one waited for, and there is none -/
theorem codes_arrow_type {u v : List Nat} (ha : Der lrRules [.n 18] (u ++ 13 :: v)) (hb : Der lrRules [.n 18] (u ++ 45 :: v)) :
    False := by
  obtain ⟨s, -, h1⟩ := Counts.sentence_reads (M := definitions) (l := [0, 1, 2, 3]) definitions_small (by decide) definitions_fits
    (by decide +kernel) ha
  obtain ⟨s', -, h2⟩ := Counts.sentence_reads (M := definitions) (l := [0, 1, 2, 3]) definitions_small (by decide) definitions_fits
    (by decide +kernel) hb
  rw [Counts.reads_append, Option.bind_eq_some_iff] at h1 h2
  obtain ⟨⟨q, d⟩, h3, h4⟩ := h1
  obtain ⟨c, h5, h6⟩ := h2
  rw [h3] at h5
  cases h5
  cases d with
  | zero => simp [Counts.reads, Counts.read, definitions, arrows] at h4
  | succ d => simp [Counts.reads, Counts.read, definitions] at h6

end Verif.LR
