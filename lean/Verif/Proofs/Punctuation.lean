import Verif.Proofs.Exchange
import Verif.Proofs.PunctuationData
/-
The automata for `:`, `&` and `@`, the counter for `=>`, and what may come where a program may end.
-/
namespace Verif.LR

variable {G : List Rule} {S : List State}

theorem both_run_end {i : Nat} {v : List Nat} : ∀ (u : List Nat) {s : Nat} {σ : List Nat}, waiting S s →
    AcceptRun G (tablesOf G S) (s :: σ) (u ++ i :: v) → AcceptRun G (tablesOf G S) (s :: σ) u →
    ∃ s', waiting S s' ∧ (actionsOf G S s').testBit i = true ∧ (tablesOf G S).action s' none ≠ .error
  | [], s, σ, hw, h, h' => by
    obtain ⟨_, _, e, h1⟩ := first_action h
    cases e
    refine ⟨s, hw, action_bit h1, fun he => ?_⟩
    cases h' with
    | nil hs =>
      cases hs with
      | done hs => simp [step, he] at hs
      | more hs _ => simp [step, he] at hs
  | a :: u, s, σ, hw, h, h' => by
    cases h with
    | cons h1 h2 =>
    cases h' with
    | cons h3 h4 =>
    have e := (Settles.det h1 h3).2
    injection e with e
    subst e
    obtain ⟨s', σ', rfl, hw'⟩ := shifted_waiting h1 _ rfl
    exact both_run_end u hw' h2 h4

/-- the states in which the parser waits -/
def waits : List Nat :=
  (0 :: lrStates.flatMap fun st => st.next.filterMap fun e => match e.1 with | .t _ => some e.2 | _ => none).eraseDups

theorem mem_waits {s : Nat} (h : waiting lrStates s) : s ∈ waits := by
  unfold waits
  rw [List.mem_eraseDups, List.mem_cons]
  rcases h with rfl | ⟨st, hst, a, ha⟩
  · exact .inl rfl
  · exact .inr (List.mem_flatMap.2 ⟨st, hst, List.mem_filterMap.2 ⟨_, ha, rfl⟩⟩)

/-- the sets of terminals that may come next where the program may end -/
def endSets : List Nat :=
  (waits.filter fun s => (tablesOf lrRules lrStates).action s none != .error).map (actionsOf lrRules lrStates)

theorem both_end {u v : List Nat} {i : Nat} (h : Der lrRules [.n 18] (u ++ i :: v)) (h' : Der lrRules [.n 18] u) :
    ∃ m ∈ endSets, m.testBit i = true := by
  have e : num .Program = 18 := by decide +kernel
  rw [← e] at h h'
  obtain ⟨s, hw, h1, h2⟩ := both_run_end u (.inl rfl) (complete lrTidy lrValid h) (complete lrTidy lrValid h')
  exact ⟨_, List.mem_map.2 ⟨s, List.mem_filter.2 ⟨mem_waits hw, by simpa using h2⟩, rfl⟩, h1⟩

/-! ### The machines -/

def twelfthPass : Passes := ⟨25, twelfthPassSteps, twelfthPassSets, twelfthPassDoomed, twelfthPassFinal⟩
def thirteenthPass : Passes := ⟨16, thirteenthPassSteps, thirteenthPassSets, thirteenthPassDoomed, thirteenthPassFinal⟩
def fourteenthPass : Passes := ⟨15, fourteenthPassSteps, fourteenthPassSets, fourteenthPassDoomed, fourteenthPassFinal⟩

set_option maxRecDepth 100000 in
theorem twelfthPass_fits : twelfthPass.fits lrRules = true := by decide +kernel
set_option maxRecDepth 100000 in
theorem twelfthPass_small : twelfthPass.small = true := by decide +kernel
set_option maxRecDepth 100000 in
theorem twelfthPass_lost : twelfthPass.keepsLost 59 = true := by decide +kernel
set_option maxRecDepth 100000 in
theorem thirteenthPass_fits : thirteenthPass.fits lrRules = true := by decide +kernel
set_option maxRecDepth 100000 in
theorem thirteenthPass_small : thirteenthPass.small = true := by decide +kernel
set_option maxRecDepth 100000 in
theorem thirteenthPass_lost : thirteenthPass.keepsLost 59 = true := by decide +kernel
set_option maxRecDepth 100000 in
theorem fourteenthPass_fits : fourteenthPass.fits lrRules = true := by decide +kernel
set_option maxRecDepth 100000 in
theorem fourteenthPass_small : fourteenthPass.small = true := by decide +kernel
set_option maxRecDepth 100000 in
theorem fourteenthPass_lost : fourteenthPass.keepsLost 59 = true := by decide +kernel

set_option maxRecDepth 100000 in
theorem twelfth_more : (List.range 25).all (fun q => twelfthPass.lost (twelfthPass.step q 3) q) = true := by decide +kernel
set_option maxRecDepth 100000 in
theorem thirteenth_more : (List.range 16).all (fun q => thirteenthPass.lost (thirteenthPass.step q 16) q) = true := by
  decide +kernel
set_option maxRecDepth 100000 in
theorem fourteenth_more : (List.range 15).all (fun q => fourteenthPass.lost (fourteenthPass.step q 19) q) = true := by
  decide +kernel

/-- the reader of `=>`: the counter counts those that are still to come, one for every `fun`, `tfun`, clause of a `match`,
and for the constraint of the contract.  A `|` begins a clause unless there was no `match` since the last `type`.  States 1
and 3: behind `)`; states 2 and 3: no `match` since the last `type`.  (Codes: 5 `|`, 9 `)`, 13 `=>`, 28 `match`, 29 `with`,
31 `fun`, 32 `tfun`, 45 `type`.) -/
def arrows : Counts where
  size := 4
  move s t z :=
    if t = 28 then some (0, .stay) else if t = 45 then some (2, .stay)
    else if t = 31 ∨ t = 32 then some (2 * (s / 2 % 2), .up)
    else if t = 5 then some (2 * (s / 2 % 2), if s / 2 % 2 = 0 then .up else .stay)
    else if t = 13 then if z then none else some (2 * (s / 2 % 2), .down)
    else if t = 29 then some (2 * (s / 2 % 2), if s % 2 = 1 then .up else .stay)
    else if t = 9 then some (2 * (s / 2 % 2) + 1, .stay) else some (2 * (s / 2 % 2), .stay)
  table := arrowsTable

set_option maxRecDepth 100000 in
theorem arrows_fits : arrows.fits lrRules = true := by decide +kernel

theorem arrows_small : arrows.Small := by
  refine ⟨?_, by decide +kernel⟩
  intro s a z p h
  simp only [arrows] at h ⊢
  repeat' split at h
  all_goals first
    | (cases h; done)
    | (cases h; simp; done)
    | (cases h; simp only; omega)

/-- a terminal other than `=>` does not depend on the counter -/
theorem arrows_move {s a : Nat} (h : a ≠ 13) (z z' : Bool) : arrows.move s a z = arrows.move s a z' ∧
    ∀ p, arrows.move s a z = some p → p.2 ≠ .down := by
  simp only [arrows, h, if_false, true_and]
  intro p hp
  repeat' split at hp
  all_goals first
    | (cases hp; done)
    | (cases hp; intro h; cases h)

/-- a terminal other than `with` does not depend on whether a `)` is before it -/
theorem arrows_paren {s a : Nat} (h : a ≠ 29) (z : Bool) : arrows.move s a z = arrows.move (2 * (s / 2 % 2)) a z := by
  have e : 2 * (s / 2 % 2) / 2 % 2 = s / 2 % 2 := by omega
  simp only [arrows, h, if_false, e]

/-- one more `=>` waited for: it never comes -/
theorem arrows_more (v : List Nat) : ∀ (s d : Nat) {c c' : Nat × Nat}, arrows.reads (s, d) v = some c →
    arrows.reads (s, d + 1) v = some c' → c'.2 = c.2 + 1 := by
  induction v with
  | nil => intro s d c c' h h'; cases h; cases h'; rfl
  | cons a v ih =>
    intro s d c c' h h'
    simp only [Counts.reads, Option.bind_eq_some_iff, Counts.read, Option.map_eq_some_iff] at h h'
    obtain ⟨_, ⟨⟨s1, m1⟩, h1, rfl⟩, h2⟩ := h
    obtain ⟨_, ⟨⟨s2, m2⟩, h3, rfl⟩, h4⟩ := h'
    have key : s1 = s2 ∧ m2.on (d + 1) = m1.on d + 1 := by
      by_cases h13 : a = 13
      · subst h13
        have e : (d + 1 == 0) = false := by simp
        rw [e] at h3
        by_cases hd : d = 0
        · subst hd; simp [arrows] at h1
        · have e' : (d == 0) = false := by simpa using hd
          rw [e'] at h1
          rw [h1] at h3
          cases h3
          simp [arrows] at h1
          obtain ⟨-, rfl⟩ := h1
          exact ⟨rfl, by simp only [Turn.on]; omega⟩
      · rw [(arrows_move h13 _ (d == 0)).1, h1] at h3
        cases h3
        have := (arrows_move h13 _ (d == 0)).2 _ h1
        refine ⟨rfl, ?_⟩
        cases m1 with
        | stay => rfl
        | up => rfl
        | down => exact absurd rfl this
    obtain ⟨rfl, k2⟩ := key
    rw [k2] at h4
    exact ih _ _ h2 h4

theorem drop_arrow {u v : List Nat} (hn : ∀ a v', v = a :: v' → a ≠ 29) (ha : Der lrRules [.n 18] (u ++ 13 :: v))
    (hb : Der lrRules [.n 18] (u ++ v)) : False := by
  obtain ⟨s, -, h1⟩ := Counts.sentence_reads (M := arrows) (l := [0, 1, 2, 3]) arrows_small (by decide) arrows_fits (by decide +kernel) ha
  obtain ⟨s', -, h2⟩ := Counts.sentence_reads (M := arrows) (l := [0, 1, 2, 3]) arrows_small (by decide) arrows_fits (by decide +kernel) hb
  rw [Counts.reads_append, Option.bind_eq_some_iff] at h1 h2
  obtain ⟨⟨q, d⟩, h3, h4⟩ := h1
  obtain ⟨c, h5, h6⟩ := h2
  rw [h3] at h5
  cases h5
  have e13 : ∃ d', d = d' + 1 ∧ arrows.read (q, d) 13 = some (2 * (q / 2 % 2), d') := by
    simp only [Counts.reads, Option.bind_eq_some_iff] at h4
    obtain ⟨c, h, -⟩ := h4
    cases d with
    | zero => simp [Counts.read, arrows] at h
    | succ d => exact ⟨d, rfl, by simp [Counts.read, arrows, Turn.on]⟩
  obtain ⟨d, rfl, e13⟩ := e13
  simp only [Counts.reads, e13, Option.bind_some] at h4 h6
  cases v with
  | nil =>
    cases h4
    cases h6
  | cons a v =>
    have : arrows.reads (2 * (q / 2 % 2), d + 1) (a :: v) = some (s', 0) := by
      rw [← h6]
      simp only [Counts.reads, Counts.read]
      rw [← arrows_paren (hn a v rfl)]
    have := arrows_more _ _ _ h4 this
    simp at this

end Verif.LR
