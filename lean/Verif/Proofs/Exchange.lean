import Verif.Proofs.Keywords
import Verif.Proofs.ExchangeData
import Verif.Proofs.LRComplete
/-
Two terminals behind the same terminals: the shift-reduce parser is then in a state with an action for both.
-/
namespace Verif.LR

variable {G : List Rule} {S : List State}

def withTerminal (acc : Nat) : Sym × Nat → Nat
  | (.t a, _) => acc ||| 2 ^ a
  | (.n _, _) => acc

/-- the terminals for which a state has an action, one bit each -/
def actionsOf (G : List Rule) (S : List State) (s : Nat) : Nat :=
  (itemsOf S s).foldl (fun acc i => if complete? G i then acc ||| i.la >>> 1 else acc) 0 |||
    (nextsOf S s).foldl withTerminal 0

theorem testBit_items {a : Nat} (l : List Item) : ∀ acc, (l.foldl (fun acc i => if complete? G i then acc ||| i.la >>> 1 else acc) acc).testBit a = true ↔
    acc.testBit a = true ∨ ∃ i ∈ l, complete? G i = true ∧ i.la.testBit (a + 1) = true := by
  induction l with
  | nil => simp
  | cons i l ih =>
    intro acc
    rw [List.foldl_cons, ih]
    by_cases h : complete? G i = true
    · simp [h, Nat.add_comm 1 a, or_assoc]
    · simp [h]

theorem testBit_nexts {a : Nat} (l : List (Sym × Nat)) : ∀ acc,
    (l.foldl withTerminal acc).testBit a = true ↔
      acc.testBit a = true ∨ ∃ s, (Sym.t a, s) ∈ l := by
  induction l with
  | nil => simp
  | cons e l ih =>
    intro acc
    rw [List.foldl_cons, ih]
    obtain ⟨X, s⟩ := e
    cases X with
    | n x => simp [withTerminal]
    | t b =>
      by_cases h : b = a
      · subst h; simp [withTerminal, Nat.testBit_two_pow_self]
      · have : (2 ^ b).testBit a = false := by rw [Nat.testBit_two_pow]; simpa using h
        simp [withTerminal, this, Ne.symm h]

theorem action_bit {s a : Nat} (h : (tablesOf G S).action s (some a) ≠ .error) : (actionsOf G S s).testBit a = true := by
  unfold actionsOf
  rw [Nat.testBit_or, Bool.or_eq_true, testBit_items, testBit_nexts]
  simp only [tablesOf] at h
  cases e : (itemsOf S s).find? fun i => complete? G i && i.la.testBit (bit (some a)) with
  | some i =>
    have h1 := List.find?_some e
    rw [Bool.and_eq_true] at h1
    exact .inl (.inr ⟨i, List.mem_of_find?_eq_some e, h1.1, h1.2⟩)
  | none =>
    rw [e] at h
    cases e' : (nextsOf S s).lookup (.t a) with
    | none => rw [e'] at h; exact absurd rfl h
    | some s' => exact .inr (.inr ⟨s', lookup_mem e'⟩)

/-- the states in which the parser waits for the next token -/
def waiting (S : List State) (s : Nat) : Prop := s = 0 ∨ ∃ st ∈ S, ∃ a, (Sym.t a, s) ∈ st.next

theorem shifted_waiting {la : Option Nat} {n : Nat} {st : List Nat} {v : Verdict} (h : Settles G (tablesOf G S) la n st v) :
    ∀ st', v = .shifted st' → ∃ s σ, st' = s :: σ ∧ waiting S s := by
  induction h with
  | @done st v hs =>
    rintro st' rfl
    cases st with
    | nil => simp [step] at hs
    | cons s σ =>
      simp only [step] at hs
      split at hs
      · rename_i s' a ha
        simp only [Step.done.injEq, Verdict.shifted.injEq] at hs
        refine ⟨s', _, hs.symm, .inr ?_⟩
        simp only [tablesOf] at ha
        split at ha
        · cases ha
        · split at ha
          · rename_i s2 e
            cases ha
            have := lookup_mem e
            unfold nextsOf at this
            cases e2 : S[s]? with
            | none => rw [e2] at this; simp at this
            | some st =>
              rw [e2] at this
              exact ⟨st, List.mem_of_getElem? e2, _, this⟩
          · cases ha
      · cases hs
      · cases hs
      · cases hs
      · simp only [popGoto] at hs
        split at hs
        · cases hs
        · split at hs <;> cases hs
      · cases hs
  | more _ _ ih => exact ih

theorem first_action {T : Tables} {st w : List Nat} {a : Nat} (h : AcceptRun G T st (a :: w)) :
    ∃ s σ, st = s :: σ ∧ T.action s (some a) ≠ .error := by
  cases h with
  | cons hs _ =>
    cases st with
    | nil =>
      cases hs with
      | done hs => simp [step] at hs
      | more hs _ => simp [step] at hs
    | cons s σ =>
      refine ⟨s, σ, rfl, fun he => ?_⟩
      cases hs with
      | done hs => simp [step, he] at hs
      | more hs _ => simp [step, he] at hs

theorem both_run {i j : Nat} {v v' : List Nat} : ∀ (u : List Nat) {s : Nat} {σ : List Nat}, waiting S s →
    AcceptRun G (tablesOf G S) (s :: σ) (u ++ i :: v) → AcceptRun G (tablesOf G S) (s :: σ) (u ++ j :: v') →
    ∃ s', waiting S s' ∧ (actionsOf G S s').testBit i = true ∧ (actionsOf G S s').testBit j = true
  | [], s, σ, hw, h, h' => by
    obtain ⟨_, _, e, h1⟩ := first_action h
    cases e
    obtain ⟨_, _, e, h2⟩ := first_action h'
    cases e
    exact ⟨s, hw, action_bit h1, action_bit h2⟩
  | a :: u, s, σ, hw, h, h' => by
    cases h with
    | cons h1 h2 =>
    cases h' with
    | cons h3 h4 =>
    have e := (Settles.det h1 h3).2
    injection e with e
    subst e
    obtain ⟨s', σ', rfl, hw'⟩ := shifted_waiting h1 _ rfl
    exact both_run u hw' h2 h4

/-- the sets of terminals that may come next, for all states in which the parser waits -/
def nextSets : List Nat :=
  ((0 :: lrStates.flatMap fun st => st.next.filterMap fun e => match e.1 with | .t _ => some e.2 | _ => none).eraseDups).map
    (actionsOf lrRules lrStates)

theorem both_next {u v v' : List Nat} {i j : Nat} (h : Der lrRules [.n 18] (u ++ i :: v)) (h' : Der lrRules [.n 18] (u ++ j :: v')) :
    ∃ m ∈ nextSets, m.testBit i = true ∧ m.testBit j = true := by
  have e : num .Program = 18 := by decide +kernel
  rw [← e] at h h'
  obtain ⟨s, hw, h1, h2⟩ := both_run u (.inl rfl) (complete lrTidy lrValid h) (complete lrTidy lrValid h')
  refine ⟨_, List.mem_map.2 ⟨s, ?_, rfl⟩, h1, h2⟩
  rw [List.mem_eraseDups, List.mem_cons]
  rcases hw with rfl | ⟨st, hst, a, ha⟩
  · exact .inl rfl
  · exact .inr (List.mem_flatMap.2 ⟨st, hst, List.mem_filterMap.2 ⟨_, ha, rfl⟩⟩)

/-! ### The automata -/

def ninthPass : Passes := ⟨8, ninthPassSteps, ninthPassSets, ninthPassDoomed, ninthPassFinal⟩
def tenthPass : Passes := ⟨33, tenthPassSteps, tenthPassSets, tenthPassDoomed, tenthPassFinal⟩
def eleventhPass : Passes := ⟨30, eleventhPassSteps, eleventhPassSets, eleventhPassDoomed, eleventhPassFinal⟩

set_option maxRecDepth 100000 in
theorem ninthPass_fits : ninthPass.fits lrRules = true := by decide +kernel
set_option maxRecDepth 100000 in
theorem ninthPass_small : ninthPass.small = true := by decide +kernel
set_option maxRecDepth 100000 in
theorem ninthPass_lost : ninthPass.keepsLost 59 = true := by decide +kernel
set_option maxRecDepth 100000 in
theorem tenthPass_fits : tenthPass.fits lrRules = true := by decide +kernel
set_option maxRecDepth 100000 in
theorem tenthPass_small : tenthPass.small = true := by decide +kernel
set_option maxRecDepth 100000 in
theorem tenthPass_lost : tenthPass.keepsLost 59 = true := by decide +kernel
set_option maxRecDepth 100000 in
theorem eleventhPass_fits : eleventhPass.fits lrRules = true := by decide +kernel
set_option maxRecDepth 100000 in
theorem eleventhPass_small : eleventhPass.small = true := by decide +kernel
set_option maxRecDepth 100000 in
theorem eleventhPass_lost : eleventhPass.keepsLost 59 = true := by decide +kernel

end Verif.LR
