import Verif.Proofs.Neighbours
import Verif.Proofs.LRTables
import Verif.Proofs.KeywordData
/-
Finite automata that all sentences of a grammar pass, and pairs of states without a common continuation.
-/
namespace Verif.LR

/-- a finite automaton: tables of steps, of the sets of states behind each nonterminal, and of states that have no
continuation in common -/
structure Passes where
  size : Nat
  steps : List (List Nat)
  sets : List (List Nat)
  doomed : List Nat
  final : Nat

namespace Passes
variable (A : Passes)

def step (q a : Nat) : Nat := (A.steps[q]?.getD [])[a]?.getD 0

def run (q : Nat) (w : List Nat) : Nat := w.foldl A.step q

def behind (q : Nat) : Sym → Nat
  | .t a => 2 ^ A.step q a
  | .n x => (A.sets[x]?.getD [])[q]?.getD (2 ^ A.size - 1)

/-- the states behind a symbol, from a set of states -/
def over (m : Nat) (X : Sym) : Nat :=
  (List.range A.size).foldl (fun acc q => if m.testBit q then acc ||| A.behind q X else acc) 0

def overs (m : Nat) (β : List Sym) : Nat := β.foldl A.over m

/-- the sets contain what the productions give -/
def fits (G : List Rule) : Bool := G.all fun r => (List.range A.size).all fun q =>
  A.behind q (.n r.lhs) == 2 ^ A.size - 1 || sub (A.overs (2 ^ q) r.rhs) (A.behind q (.n r.lhs))

def small : Bool := A.steps.all fun row => row.all (· < A.size)

def lost (a b : Nat) : Bool := (A.doomed[a]?.getD 0).testBit b

/-- states without common continuation: they do not both belong to the final ones, and the same holds after a terminal -/
def keepsLost (k : Nat) : Bool := (List.range A.size).all fun a => (List.range A.size).all fun b =>
  !A.lost a b || (!(A.final.testBit a && A.final.testBit b) && (List.range k).all fun t => A.lost (A.step a t) (A.step b t))

variable {A} {G : List Rule}

theorem step_lt (h : A.small = true) (h0 : 0 < A.size) (q a : Nat) : A.step q a < A.size := by
  unfold step
  cases e : A.steps[q]? with
  | none => simpa using h0
  | some row =>
    simp only [Option.getD_some]
    cases e' : row[a]? with
    | none => simpa using h0
    | some p =>
      have h1 := List.all_eq_true.1 h row (List.mem_of_getElem? e)
      have h2 := List.all_eq_true.1 h1 p (List.mem_of_getElem? e')
      simpa using h2

theorem testBit_over {m : Nat} {X : Sym} {b : Nat} :
    (A.over m X).testBit b = true ↔ ∃ q < A.size, m.testBit q = true ∧ (A.behind q X).testBit b = true := by
  have gen : ∀ (l : List Nat) (acc : Nat),
      (l.foldl (fun acc q => if m.testBit q then acc ||| A.behind q X else acc) acc).testBit b = true ↔
        acc.testBit b = true ∨ ∃ q ∈ l, m.testBit q = true ∧ (A.behind q X).testBit b = true := by
    intro l
    induction l with
    | nil => simp
    | cons q l ih =>
      intro acc
      rw [List.foldl_cons, ih]
      by_cases h : m.testBit q = true
      · simp [h, or_assoc]
      · simp [h]
  simp [over, gen]

theorem run_lt (h : A.small = true) (h0 : 0 < A.size) (w : List Nat) : ∀ q < A.size, A.run q w < A.size := by
  induction w with
  | nil => intro q hq; exact hq
  | cons a w ih => intro q _; exact ih _ (step_lt h h0 q a)

/-- Every sentence leads into the sets. -/
theorem der_run (hs : A.small = true) (h0 : 0 < A.size) (hf : A.fits G = true) {β : List Sym} {w : List Nat} (h : Der G β w) :
    ∀ m q, q < A.size → m.testBit q = true → (A.overs m β).testBit (A.run q w) = true := by
  induction h with
  | nil => intro m q _ hm; exact hm
  | @t a α w _ ih =>
    intro m q hq hm
    show (A.overs (A.over m (.t a)) α).testBit (A.run (A.step q a) w) = true
    refine ih _ _ (step_lt hs h0 q a) (testBit_over.2 ⟨q, hq, hm, ?_⟩)
    simp [behind, Nat.testBit_two_pow_self]
  | @n r α u w hr _ _ ihu ihw =>
    intro m q hq hm
    show (A.overs (A.over m (.n r.lhs)) α).testBit (A.run q (u ++ w)) = true
    have e : A.run q (u ++ w) = A.run (A.run q u) w := List.foldl_append
    rw [e]
    have hlt := run_lt hs h0 u q hq
    refine ihw _ _ hlt (testBit_over.2 ⟨q, hq, hm, ?_⟩)
    have h1 := ihu (2 ^ q) q hq (Nat.testBit_two_pow_self)
    have h2 := List.all_eq_true.1 (List.all_eq_true.1 hf r hr) q (List.mem_range.2 hq)
    rw [Bool.or_eq_true, beq_iff_eq] at h2
    rcases h2 with h2 | h2
    · rw [h2, Nat.testBit_two_pow_sub_one]
      simpa using hlt
    · exact testBit_of_sub h2 h1

theorem lost_run {k : Nat} (hs : A.small = true) (h0 : 0 < A.size) (hk : A.keepsLost k = true) (v : List Nat)
    (hv : ∀ t ∈ v, t < k) : ∀ a b, a < A.size → b < A.size → A.lost a b = true →
    ¬ (A.final.testBit (A.run a v) = true ∧ A.final.testBit (A.run b v) = true) := by
  have use : ∀ a b, a < A.size → b < A.size → A.lost a b = true → (A.final.testBit a && A.final.testBit b) = false ∧
      ∀ t < k, A.lost (A.step a t) (A.step b t) = true := by
    intro a b ha hb hl
    have h := List.all_eq_true.1 (List.all_eq_true.1 hk a (List.mem_range.2 ha)) b (List.mem_range.2 hb)
    rw [hl] at h
    simp only [Bool.not_true, Bool.false_or, Bool.and_eq_true, Bool.not_eq_true'] at h
    exact ⟨h.1, fun t ht => List.all_eq_true.1 h.2 t (List.mem_range.2 ht)⟩
  induction v with
  | nil =>
    rintro a b ha hb hl ⟨h1, h2⟩
    have := (use a b ha hb hl).1
    simp only [run, List.foldl_nil] at h1 h2
    rw [h1, h2] at this
    cases this
  | cons t v ih =>
    intro a b ha hb hl
    exact ih (fun x hx => hv x (List.mem_cons_of_mem _ hx)) _ _ (step_lt hs h0 a t) (step_lt hs h0 b t)
      ((use a b ha hb hl).2 t (hv t List.mem_cons_self))

/-- Two sentences that differ in one part cannot both exist if the parts lead to states without common continuation. -/
theorem apart {k : Nat} (hs : A.small = true) (h1 : 1 < A.size) (hf : A.fits G = true) (hk : A.keepsLost k = true) {s : Nat}
    (hfin : A.behind 1 (.n s) = A.final) {u v x y : List Nat} (hv : ∀ t ∈ v, t < k)
    (hl : A.lost (A.run (A.run 1 u) x) (A.run (A.run 1 u) y) = true) (ha : Der G [.n s] (u ++ (x ++ v)))
    (hb : Der G [.n s] (u ++ (y ++ v))) : False := by
  have h0 : 0 < A.size := by omega
  have key : ∀ w, Der G [.n s] w → A.final.testBit (A.run 1 w) = true := by
    intro w hw
    have h := der_run hs h0 hf hw (2 ^ 1) 1 h1 Nat.testBit_two_pow_self
    obtain ⟨q, -, hq, h⟩ := testBit_over.1 h
    have : q = 1 := by
      rw [Nat.testBit_two_pow] at hq
      simpa [eq_comm] using hq
    subst this
    rwa [hfin] at h
  have hq := run_lt hs h0 u 1 h1
  have e : ∀ x, A.run 1 (u ++ (x ++ v)) = A.run (A.run (A.run 1 u) x) v := by
    intro x
    simp [run, List.foldl_append]
  refine lost_run hs h0 hk v hv _ _ (run_lt hs h0 x _ hq) (run_lt hs h0 y _ hq) hl ⟨?_, ?_⟩
  · rw [← e]; exact key _ ha
  · rw [← e]; exact key _ hb

/-- In particular if they differ in one terminal that leads there wherever it stands. -/
theorem one_of_two {k : Nat} (hs : A.small = true) (h1 : 1 < A.size) (hf : A.fits G = true) (hk : A.keepsLost k = true) {s : Nat}
    (hfin : A.behind 1 (.n s) = A.final) {u v : List Nat} {a b : Nat} (hv : ∀ t ∈ v, t < k)
    (hl : ∀ q < A.size, A.lost (A.step q a) (A.step q b) = true) (ha : Der G [.n s] (u ++ a :: v)) (hb : Der G [.n s] (u ++ b :: v)) :
    False :=
  apart hs h1 hf hk hfin (x := [a]) (y := [b]) hv (hl _ (run_lt hs (by omega) u 1 h1)) ha hb

/-- In particular if one of them has one terminal more. -/
theorem one_more {k : Nat} (hs : A.small = true) (h1 : 1 < A.size) (hf : A.fits G = true) (hk : A.keepsLost k = true) {s : Nat}
    (hfin : A.behind 1 (.n s) = A.final) {u v : List Nat} {a : Nat} (hv : ∀ t ∈ v, t < k)
    (hl : A.lost (A.step (A.run 1 u) a) (A.run 1 u) = true) (ha : Der G [.n s] (u ++ a :: v)) (hb : Der G [.n s] (u ++ v)) :
    False :=
  apart hs h1 hf hk hfin (x := [a]) (y := []) hv hl ha hb

end Passes

/-! ### Counter machines -/

inductive Turn | stay | up | down
deriving DecidableEq, Repr

def Turn.on : Turn → Nat → Nat
  | .stay, k => k
  | .up, k => k + 1
  | .down, k => k - 1

/-- a machine with one counter: for a state, a terminal, and whether the counter is zero, the next state and what happens
to the counter; and for each nonterminal, each state and whether the counter is known to be zero, the states behind it -/
structure Counts where
  size : Nat
  move : Nat → Nat → Bool → Option (Nat × Turn)
  table : List (List (Option (List Nat)))

namespace Counts
variable (M : Counts)

def read (c : Nat × Nat) (a : Nat) : Option (Nat × Nat) := (M.move c.1 a (c.2 == 0)).map fun p => (p.1, p.2.on c.2)

def reads : Nat × Nat → List Nat → Option (Nat × Nat)
  | c, [] => some c
  | c, a :: w => (M.read c a).bind fun c' => reads c' w

def look (x : Nat) (z : Bool) (s : Nat) : Option (List Nat) := (M.table[x]?.getD [])[2 * s + (if z then 1 else 0)]?.getD none

/-- `(s, k)`: state `s`, the counter is `k` above a number that is zero if `z`, positive if not -/
def absOne (z : Bool) (c : Nat × Nat) : Sym → Option (List (Nat × Nat))
  | .t a =>
    if 0 < c.2 then (M.move c.1 a false).map fun p => [(p.1, p.2.on c.2)]
    else if z then (M.move c.1 a true).map fun p => [(p.1, p.2.on c.2)]
    else
      match M.move c.1 a false with
      | some (s, .stay) => some [(s, c.2)]
      | some (s, .up) => some [(s, c.2 + 1)]
      | _ => none
  | .n x => (M.look x (z && c.2 == 0) c.1).map fun l => l.map fun s => (s, c.2)

def absStep (z : Bool) (X : Sym) : List (Nat × Nat) → Option (List (Nat × Nat))
  | [] => some []
  | c :: cs => (M.absOne z c X).bind fun l => (absStep z X cs).map fun l' => (l ++ l').eraseDups

def absRun (z : Bool) : List (Nat × Nat) → List Sym → Option (List (Nat × Nat))
  | cs, [] => some cs
  | cs, X :: β => (M.absStep z X cs).bind fun cs' => absRun z cs' β

def fits (G : List Rule) : Bool := G.all fun r => [false, true].all fun z => (List.range M.size).all fun s =>
  match M.look r.lhs z s with
  | none => true
  | some l =>
    match M.absRun z [(s, 0)] r.rhs with
    | none => false
    | some cs => cs.all fun c => c.2 == 0 && l.contains c.1

/-- all states of the table and of the machine are below `size` -/
def Small : Prop := (∀ s a z p, M.move s a z = some p → p.1 < M.size) ∧
  (M.table.all fun row => row.all fun o => (o.getD []).all (· < M.size)) = true

variable {M} {G : List Rule}

theorem reads_append (u v : List Nat) : ∀ c, M.reads c (u ++ v) = (M.reads c u).bind fun c' => M.reads c' v := by
  induction u with
  | nil => intro c; rfl
  | cons a u ih =>
    intro c
    simp only [List.cons_append, reads]
    cases M.read c a with
    | none => rfl
    | some c' => exact ih c'

theorem look_lt (hs : M.Small) {x : Nat} {z : Bool} {s : Nat} {l : List Nat} (h : M.look x z s = some l) : ∀ q ∈ l, q < M.size := by
  unfold look at h
  cases e : M.table[x]? with
  | none => rw [e] at h; simp at h
  | some row =>
    rw [e, Option.getD_some] at h
    cases e' : row[2 * s + (if z then 1 else 0)]? with
    | none => rw [e'] at h; simp at h
    | some o =>
      rw [e', Option.getD_some] at h
      subst h
      have h1 := List.all_eq_true.1 hs.2 row (List.mem_of_getElem? e)
      have h2 := List.all_eq_true.1 h1 _ (List.mem_of_getElem? e')
      intro q hq
      simpa using List.all_eq_true.1 h2 q hq

theorem absStep_mem {z : Bool} {X : Sym} : ∀ {cs cs' : List (Nat × Nat)}, M.absStep z X cs = some cs' →
    ∀ c ∈ cs, ∃ l, M.absOne z c X = some l ∧ ∀ c' ∈ l, c' ∈ cs'
  | [], _, _, _, h => by simp at h
  | c :: cs, cs', e, d, h => by
    simp only [absStep, Option.bind_eq_some_iff, Option.map_eq_some_iff] at e
    obtain ⟨l, h1, l', h2, rfl⟩ := e
    rcases List.mem_cons.1 h with rfl | h
    · exact ⟨l, h1, fun c' hc => by simp [hc]⟩
    · obtain ⟨k, h3, h4⟩ := absStep_mem h2 d h
      exact ⟨k, h3, fun c' hc => by simp [h4 c' hc]⟩

theorem absOne_t {z : Bool} {s k a : Nat} {l : List (Nat × Nat)} (h : M.absOne z (s, k) (.t a) = some l) {d : Nat}
    (hd : z = true ↔ d = 0) : ∃ s' k', (s', k') ∈ l ∧ M.read (s, d + k) a = some (s', d + k') := by
  simp only [absOne] at h
  by_cases hk : 0 < k
  · rw [if_pos hk, Option.map_eq_some_iff] at h
    obtain ⟨⟨s', m⟩, h1, rfl⟩ := h
    refine ⟨s', m.on k, by simp, ?_⟩
    have e : (d + k == 0) = false := by simp; omega
    simp only [read, e, h1, Option.map_some, Option.some.injEq, Prod.mk.injEq, true_and]
    cases m <;> simp only [Turn.on] <;> omega
  · have hk0 : k = 0 := by omega
    subst hk0
    rw [if_neg hk] at h
    cases z with
    | true =>
      have := hd.1 rfl
      subst this
      simp only [if_true, Option.map_eq_some_iff] at h
      obtain ⟨⟨s', m⟩, h1, rfl⟩ := h
      exact ⟨s', m.on 0, by simp, by simp [read, h1]⟩
    | false =>
      simp only [Bool.false_eq_true, if_false] at h
      have e0 : (d + 0 == 0) = false := by have := fun h => Bool.false_ne_true (hd.2 h); simpa using this
      cases e : M.move s a false with
      | none => rw [e] at h; cases h
      | some p =>
        obtain ⟨s', m⟩ := p
        rw [e] at h
        cases m with
        | stay =>
          simp only [Option.some.injEq] at h
          subst h
          exact ⟨s', 0, by simp, by simp only [read, e0, e, Option.map_some, Turn.on]⟩
        | up =>
          simp only [Option.some.injEq] at h
          subst h
          exact ⟨s', 1, by simp, by simp only [read, e0, e, Option.map_some, Turn.on]⟩
        | down => cases h

/-- Every sentence is read as the table says. -/
theorem der_reads (hs : M.Small) (hf : M.fits G = true) {β : List Sym} {w : List Nat} (h : Der G β w) :
    ∀ z cs cs', M.absRun z cs β = some cs' → ∀ s k, (s, k) ∈ cs → s < M.size → ∀ d, (z = true ↔ d = 0) →
      ∃ s' k', (s', k') ∈ cs' ∧ s' < M.size ∧ M.reads (s, d + k) w = some (s', d + k') := by
  induction h with
  | nil =>
    intro z cs cs' e s k hm hlt d _
    cases e
    exact ⟨s, k, hm, hlt, rfl⟩
  | @t a α w _ ih =>
    intro z cs cs' e s k hm hlt d hd
    simp only [absRun, Option.bind_eq_some_iff] at e
    obtain ⟨cs1, e1, e2⟩ := e
    obtain ⟨l, h1, h2⟩ := absStep_mem e1 _ hm
    obtain ⟨s1, k1, h3, h4⟩ := absOne_t h1 hd
    have hl1 : s1 < M.size := by
      simp only [read, Option.map_eq_some_iff, Prod.mk.injEq] at h4
      obtain ⟨p, h5, rfl, -⟩ := h4
      exact hs.1 _ _ _ _ h5
    obtain ⟨s2, k2, h5, h6, h7⟩ := ih z cs1 cs' e2 s1 k1 (h2 _ h3) hl1 d hd
    exact ⟨s2, k2, h5, h6, by simp only [reads, h4, Option.bind_some, h7]⟩
  | @n r α u w hr _ _ ihu ihw =>
    intro z cs cs' e s k hm hlt d hd
    simp only [absRun, Option.bind_eq_some_iff] at e
    obtain ⟨cs1, e1, e2⟩ := e
    obtain ⟨l, h1, h2⟩ := absStep_mem e1 _ hm
    simp only [absOne, Option.map_eq_some_iff] at h1
    obtain ⟨l0, h1, rfl⟩ := h1
    have hz : (z && k == 0) = true ↔ d + k = 0 := by
      rw [Bool.and_eq_true, beq_iff_eq, hd]
      omega
    have hfr := List.all_eq_true.1 (List.all_eq_true.1 (List.all_eq_true.1 hf r hr) (z && k == 0) (by cases (z && k == 0) <;> simp))
      s (List.mem_range.2 hlt)
    rw [h1] at hfr
    cases e3 : M.absRun (z && k == 0) [(s, 0)] r.rhs with
    | none => rw [e3] at hfr; simp at hfr
    | some cs2 =>
      rw [e3] at hfr
      obtain ⟨s1, k1, h3, h4, h5⟩ := ihu _ _ _ e3 s 0 (by simp) hlt (d + k) hz
      have h6 := List.all_eq_true.1 hfr _ h3
      simp only [Bool.and_eq_true, beq_iff_eq, List.contains_iff_mem] at h6
      obtain ⟨rfl, h6⟩ := h6
      obtain ⟨s2, k2, h7, h8, h9⟩ := ihw z cs1 cs' e2 s1 k (h2 _ (List.mem_map.2 ⟨s1, h6, rfl⟩)) (look_lt hs h1 _ h6) d hd
      refine ⟨s2, k2, h7, h8, ?_⟩
      rw [reads_append]
      simp only [Nat.add_zero] at h5
      rw [h5, Option.bind_some, h9]

/-- The sentences from the start: the counter is zero again. -/
theorem sentence_reads (hs : M.Small) (h0 : 0 < M.size) (hf : M.fits G = true) {x : Nat} {l : List Nat} (hx : M.look x true 0 = some l)
    {w : List Nat} (h : Der G [.n x] w) : ∃ s ∈ l, M.reads (0, 0) w = some (s, 0) := by
  obtain ⟨s, k, h1, -, h3⟩ := der_reads hs hf h true [(0, 0)] (l.map fun s => (s, 0)).eraseDups (by
    simp [absRun, absStep, absOne, hx]) 0 0 (by simp) h0 0 (by simp)
  simp only [List.mem_eraseDups, List.mem_map, Prod.mk.injEq] at h1
  obtain ⟨q, hq, rfl, rfl⟩ := h1
  exact ⟨q, hq, by simpa using h3⟩

end Counts

/-! ### The machines -/

def firstPass : Passes := ⟨47, firstPassSteps, firstPassSets, firstPassDoomed, firstPassFinal⟩
def secondPass : Passes := ⟨9, secondPassSteps, secondPassSets, secondPassDoomed, secondPassFinal⟩
def thirdPass : Passes := ⟨20, thirdPassSteps, thirdPassSets, thirdPassDoomed, thirdPassFinal⟩
def fourthPass : Passes := ⟨11, fourthPassSteps, fourthPassSets, fourthPassDoomed, fourthPassFinal⟩
def fifthPass : Passes := ⟨15, fifthPassSteps, fifthPassSets, fifthPassDoomed, fifthPassFinal⟩
def sixthPass : Passes := ⟨8, sixthPassSteps, sixthPassSets, sixthPassDoomed, sixthPassFinal⟩
def seventhPass : Passes := ⟨12, seventhPassSteps, seventhPassSets, seventhPassDoomed, seventhPassFinal⟩
def eighthPass : Passes := ⟨6, eighthPassSteps, eighthPassSets, eighthPassDoomed, eighthPassFinal⟩

set_option maxRecDepth 100000 in
theorem firstPass_fits : firstPass.fits lrRules = true := by decide +kernel
set_option maxRecDepth 100000 in
theorem firstPass_small : firstPass.small = true := by decide +kernel
set_option maxRecDepth 100000 in
theorem firstPass_lost : firstPass.keepsLost 59 = true := by decide +kernel
set_option maxRecDepth 100000 in
theorem secondPass_fits : secondPass.fits lrRules = true := by decide +kernel
set_option maxRecDepth 100000 in
theorem secondPass_small : secondPass.small = true := by decide +kernel
set_option maxRecDepth 100000 in
theorem secondPass_lost : secondPass.keepsLost 59 = true := by decide +kernel
set_option maxRecDepth 100000 in
theorem thirdPass_fits : thirdPass.fits lrRules = true := by decide +kernel
set_option maxRecDepth 100000 in
theorem thirdPass_small : thirdPass.small = true := by decide +kernel
set_option maxRecDepth 100000 in
theorem thirdPass_lost : thirdPass.keepsLost 59 = true := by decide +kernel

set_option maxRecDepth 100000 in
theorem fourthPass_fits : fourthPass.fits lrRules = true := by decide +kernel
set_option maxRecDepth 100000 in
theorem fourthPass_small : fourthPass.small = true := by decide +kernel
set_option maxRecDepth 100000 in
theorem fourthPass_lost : fourthPass.keepsLost 59 = true := by decide +kernel
set_option maxRecDepth 100000 in
theorem fifthPass_fits : fifthPass.fits lrRules = true := by decide +kernel
set_option maxRecDepth 100000 in
theorem fifthPass_small : fifthPass.small = true := by decide +kernel
set_option maxRecDepth 100000 in
theorem fifthPass_lost : fifthPass.keepsLost 59 = true := by decide +kernel
set_option maxRecDepth 100000 in
theorem sixthPass_fits : sixthPass.fits lrRules = true := by decide +kernel
set_option maxRecDepth 100000 in
theorem sixthPass_small : sixthPass.small = true := by decide +kernel
set_option maxRecDepth 100000 in
theorem sixthPass_lost : sixthPass.keepsLost 59 = true := by decide +kernel
set_option maxRecDepth 100000 in
theorem seventhPass_fits : seventhPass.fits lrRules = true := by decide +kernel
set_option maxRecDepth 100000 in
theorem seventhPass_small : seventhPass.small = true := by decide +kernel
set_option maxRecDepth 100000 in
theorem seventhPass_lost : seventhPass.keepsLost 59 = true := by decide +kernel
set_option maxRecDepth 100000 in
theorem eighthPass_fits : eighthPass.fits lrRules = true := by decide +kernel
set_option maxRecDepth 100000 in
theorem eighthPass_small : eighthPass.small = true := by decide +kernel
set_option maxRecDepth 100000 in
theorem eighthPass_lost : eighthPass.keepsLost 59 = true := by decide +kernel

/-- the reader of `let … in`.  State 1: behind `=`, `=>`, `in` or `with`, where a `let` begins an expression; the counter
counts the expressions that wait for their `in`.  (Codes: 26 `let`, 27 `in`, 13 `=>`, 15 `=`, 29 `with`.) -/
def letIn : Counts where
  size := 2
  move s t z :=
    if t = 26 then if s = 1 then some (0, .up) else if z then some (0, .stay) else none
    else if t = 27 then if z then none else some (1, .down)
    else if t = 13 ∨ t = 15 ∨ t = 29 then some (1, .stay) else some (0, .stay)
  table := letInTable

/-- the reader of the contract's head.  States: 0 the library, 1 the same behind `with`, 2 the same behind `)`, 3 behind
`contract`, 4 behind its name, 5 among the parameters (the counter counts the parentheses open there), 6 the same behind
`)`, 7 behind the parameters, 8 the rest, 9 the same behind `)`.  (Codes: 8 `(`, 9 `)`, 29 `with`, 33 `contract`,
34 `transition`, 38 `field`, 48 `procedure`.) -/
def header : Counts where
  size := 10
  move s t z :=
    if s ≤ 2 then
      if t = 33 then if s = 1 then some (0, .stay) else some (3, .stay)
      else if t = 29 then if s = 2 then none else some (1, .stay)
      else if t = 9 then some (2, .stay) else some (0, .stay)
    else if s = 3 then some (4, .stay)
    else if s = 4 then if t = 8 then some (5, .stay) else none
    else if s ≤ 6 then
      if t = 29 ∧ s = 6 then none
      else if t = 8 then some (5, .up)
      else if t = 9 then if z then some (7, .stay) else some (6, .down)
      else some (5, .stay)
    else if s = 7 then if t = 29 ∨ t = 38 ∨ t = 34 ∨ t = 48 then some (8, .stay) else none
    else if t = 29 ∧ s = 9 then none
    else if t = 9 then some (9, .stay) else some (8, .stay)
  table := headerTable

/-- the reader of commas: behind a comma there is a name if no block `with … end` is open, and `field` if one is.  The
counter counts these blocks; state 1: behind `)`, where a `with` begins no block; state 2: behind a comma.  (Codes: 9 `)`,
12 `,`, 29 `with`, 30 `end`, 38 `field`, 55 an identifier.) -/
def commas : Counts where
  size := 3
  move s t z :=
    if s = 2 ∧ (t = 38 ∧ z ∨ t = 55 ∧ !z) then none
    else if t = 29 then if s = 1 then some (0, .stay) else some (0, .up)
    else if t = 30 then if z then some (0, .stay) else some (0, .down)
    else if t = 12 then some (2, .stay) else if t = 9 then some (1, .stay) else some (0, .stay)
  table := commasTable

set_option maxRecDepth 100000 in
theorem commas_fits : commas.fits lrRules = true := by decide +kernel
set_option maxRecDepth 100000 in
theorem letIn_fits : letIn.fits lrRules = true := by decide +kernel
set_option maxRecDepth 100000 in
theorem header_fits : header.fits lrRules = true := by decide +kernel

theorem letIn_small : letIn.Small := by
  refine ⟨?_, by decide +kernel⟩
  intro s a z p h
  simp only [letIn] at h ⊢
  repeat' split at h
  all_goals first
    | (cases h; done)
    | (cases h; decide)

theorem commas_small : commas.Small := by
  refine ⟨?_, by decide +kernel⟩
  intro s a z p h
  simp only [commas] at h ⊢
  repeat' split at h
  all_goals first
    | (cases h; done)
    | (cases h; decide)

theorem header_small : header.Small := by
  refine ⟨?_, by decide +kernel⟩
  intro s a z p h
  simp only [header] at h ⊢
  repeat' split at h
  all_goals first
    | (cases h; done)
    | (cases h; decide)

end Verif.LR
