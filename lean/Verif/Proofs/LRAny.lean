import Verif.Proofs.LRSpeaks
import Verif.Proofs.LRTables
/-
The LR driver for any start symbol: what an outcome says about the terminals.
-/
namespace Verif.LR

variable {G : List Rule} {T : Tables} {I : Items} {P : Nat} {rank : Nat → Nat} {R : Nat} {code : Token → Option Nat}

/-- what an outcome says about the tokens (`Outcome.Right` of Proofs/LRDrive without the functions of the model) -/
def Outcome.Fair (G : List Rule) (T : Tables) (I : Items) (P : Nat) (rank : Nat → Nat) (R : Nat) (code : Token → Option Nat)
    (fin : Nat → Prop) (all : Option (List STok)) (some_ : List STok) : Outcome → Prop
  | .accept toks => all = some toks ∧ ∃ w, Coded code toks w ∧ Der G [.n P] w
  | .badToken got t st => (∃ post, some_ = got ++ t :: post) ∧ ∃ w k, Coded code got w ∧ Good G T I rank R fin st w k ∧
      (∃ z, Der G [.n P] (w ++ z)) ∧ ∀ a z, code t.tok = some a → ¬ Der G [.n P] (w ++ a :: z)
  | .badEof got st => all = some got ∧ ∃ w k, Coded code got w ∧ Good G T I rank R fin st w k ∧
      (∃ z, Der G [.n P] (w ++ z)) ∧ ¬ Der G [.n P] w
  | .extraToken _ => False
  | .lexerPanic => all = none ∧ ∃ w, Coded code some_ w ∧ ∃ z, Der G [.n P] (w ++ z)
  | .stuck => False

theorem drive_any_aux (hG : Tidy G P rank R) (hV : Valid G T I) (U : CharClass) :
    ∃ fin : Nat → Prop, Settling G T I P rank R fin ∧ ∀ n σ st got w k, σ.rest.length < n → Good G T I rank R fin st w k → Comp G T P st w →
      Coded code got w → (∃ z, Der G [.n P] (w ++ z)) →
      ∃ m o, Drive G T code U m σ st got o ∧ m ≤ k + (2 * R + 2) * (yieldedFuel U n σ).length + 1 ∧
        Outcome.Fair G T I P rank R code fin ((drainFuel U n σ).map (got ++ ·)) (got ++ yieldedFuel U n σ) o := by
  obtain ⟨fin, hset⟩ := settle hG hV
  refine ⟨fin, hset, fun n => ?_⟩
  induction n with
  | zero => intro σ st got w k hn; omega
  | succ n ih =>
    intro σ st got w k hn hgood hcomp hcoded hviable
    cases hl : lexNext U σ with
    | none =>
      obtain ⟨m, v, hs, hcase⟩ := hset hgood none
      rcases hcase with ⟨a, _, _, h1, _⟩ | ⟨_, rfl, hd, hm⟩ | ⟨st', rfl, hg', hm⟩
      · cases h1
      · refine ⟨m, _, .accept hl hs, by omega, ?_⟩
        simp only [drainFuel, hl, Outcome.Fair, Option.map_some, List.append_nil, true_and]
        exact ⟨w, hcoded, hd⟩
      · refine ⟨m, _, .badEof hl hs, by omega, ?_⟩
        simp only [drainFuel, hl, Outcome.Fair, Option.map_some, List.append_nil, true_and]
        refine ⟨w, k, hcoded, hg', hviable, fun hd => ?_⟩
        have := hcomp [] (by simpa using hd)
        cases this with
        | nil h1 =>
          obtain ⟨_, e⟩ := hs.det h1
          cases e
    | panic =>
      refine ⟨0, _, .lexerPanic hl, by omega, ?_⟩
      simp only [drainFuel, yieldedFuel, hl, Outcome.Fair, Option.map_none, List.append_nil, true_and]
      exact ⟨w, hcoded, hviable⟩
    | item t σ' =>
      have hlt := lexNext_item_lt hl
      cases ha : code t.tok with
      | none =>
        refine ⟨0, _, .noTerminal hl ha, by omega, ?_⟩
        simp only [Outcome.Fair, yieldedFuel, hl]
        exact ⟨⟨_, rfl⟩, w, k, hcoded, hgood, hviable, by intro a z h; rw [ha] at h; cases h⟩
      | some a =>
        obtain ⟨m, v, hs, hcase⟩ := hset hgood (some a)
        rcases hcase with ⟨b, st', k', hb, rfl, hg', hm, z, hz⟩ | ⟨h1, _⟩ | ⟨st', rfl, hg', hm⟩
        · obtain rfl := Option.some.inj hb
          have hc' := hcoded.snoc ha
          obtain ⟨m', o, hdrive, hm', hright⟩ := ih σ' st' (got ++ [t]) (w ++ [a]) k' (by omega) hg' (hcomp.shift hs) hc'
            ⟨z, by simpa using hz⟩
          refine ⟨m + m', o, .shift hl ha hs hdrive, ?_, ?_⟩
          · simp only [yieldedFuel, hl, List.length_cons]
            rw [Nat.mul_succ]
            omega
          · have e1 : (drainFuel U n σ').map ((got ++ [t]) ++ ·) = (drainFuel U (n + 1) σ).map (got ++ ·) := by
              simp only [drainFuel, hl, Option.map_map]
              congr 1
              funext l
              simp
            have e2 : (got ++ [t]) ++ yieldedFuel U n σ' = got ++ yieldedFuel U (n + 1) σ := by
              simp only [yieldedFuel, hl]
              simp
            rw [e1, e2] at hright
            exact hright
        · cases h1
        · refine ⟨m, _, .badToken hl ha hs, by omega, ?_⟩
          simp only [Outcome.Fair, yieldedFuel, hl]
          refine ⟨⟨_, rfl⟩, w, k, hcoded, hg', hviable, ?_⟩
          intro b z hb hd
          rw [ha] at hb
          obtain rfl := Option.some.inj hb
          have := hcomp _ hd
          cases this with
          | cons h1 _ =>
            obtain ⟨_, e⟩ := hs.det h1
            cases e

/-- The driver ends on every document, after a number of rounds linear in the number of tokens, with a fair outcome. -/
theorem drive_any (hG : Tidy G P rank R) (hV : Valid G T I) (code : Token → Option Nat) (U : CharClass) :
    ∃ fin : Nat → Prop, Settling G T I P rank R fin ∧ ∀ doc, ∃ m o, Drive G T code U m (.init doc) [0] [] o ∧
      m ≤ (2 * R + 2) * (yielded U doc).length + 1 ∧
      Outcome.Fair G T I P rank R code fin (lexDoc U doc) (yielded U doc) o := by
  obtain ⟨fin, hset, h⟩ := drive_any_aux (code := code) hG hV U
  refine ⟨fin, hset, fun doc => ?_⟩
  obtain ⟨S, h0, _⟩ := hG.start
  obtain ⟨z, hz⟩ := hG.productive _ (getElem?_mem h0) P (by simp)
  obtain ⟨m, o, h1, h2, h3⟩ := h (doc.length + 1) (.init doc) [0] [] [] 0 (Nat.lt_succ_self _)
    (good_start fin) (fun z hz => complete hG hV (by simpa using hz)) .nil ⟨z, hz⟩
  refine ⟨m, o, h1, by rw [Nat.zero_add] at h2; exact h2, ?_⟩
  have e : ∀ x : Option (List STok), x.map ([] ++ ·) = x := by
    intro x
    cases x <;> rfl
  rw [e, List.nil_append] at h3
  exact h3

/-! ### The grammars of the parsers -/

/-- the ranks, with the start symbol above all -/
def ranksAny : List Nat := lrRanks.set 118 6

theorem desugaredFor_eq (start : GName) : desugaredFor start = ⟨118, [.n (num start)]⟩ :: lrRules.tail := by
  rw [lrRules_eq]
  rfl

set_option maxRecDepth 100000 in
theorem tidyAny_check : fileNames.all (fun x =>
    checkTidy (⟨118, [.n (num x)]⟩ :: lrRules.tail) (num x) lrOrder ranksAny 6) = true := by decide +kernel

theorem tidyAny (start : GName) : Tidy (desugaredFor start) (num start) (fun x => ranksAny[x]?.getD 0) 6 := by
  rw [desugaredFor_eq]
  exact tidy_of_check (order := lrOrder)
    (List.all_eq_true.1 tidyAny_check start (List.mem_of_getElem? (fileNames_num start)))

end Verif.LR
