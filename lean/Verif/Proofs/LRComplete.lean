import Verif.Spec.LRTables
/-
Completeness of LR parsing with valid tables: everything derivable is accepted.
-/
namespace Verif.LR

variable {G : List Rule} {T : Tables} {I : Items} {P : Nat} {rank : Nat → Nat} {R : Nat}

/-- from the stack, the parser reads the terminals to the end and accepts -/
inductive AcceptRun (G : List Rule) (T : Tables) : List Nat → List Nat → Prop
  | nil {n st} : Settles G T none n st .accept → AcceptRun G T st []
  | cons {n st st' a w} : Settles G T (some a) n st (.shifted st') → AcceptRun G T st' w → AcceptRun G T st (a :: w)

theorem AcceptRun.more {st st' w : List Nat} (hs : step G T w.head? st = .more st') (h : AcceptRun G T st' w) :
    AcceptRun G T st w := by
  cases h with
  | nil h => exact .nil (.more hs h)
  | cons h h' => exact .cons (.more hs h) h'

theorem AcceptRun.shift {st st' w : List Nat} {a : Nat} (hs : step G T (some a) st = .done (.shifted st'))
    (h : AcceptRun G T st' w) : AcceptRun G T st (a :: w) := .cons (.done hs) h

theorem Der.nil_inv {w : List Nat} (h : Der G [] w) : w = [] := by cases h; rfl

theorem Der.app {α β : List Sym} {u w : List Nat} (h : Der G α u) (h' : Der G β w) : Der G (α ++ β) (u ++ w) := by
  induction h with
  | nil => exact h'
  | t _ ih => exact .t ih
  | n hr hu _ _ ih => rw [List.append_assoc]; exact .n hr hu ih

theorem Der.cons {X : Sym} {β : List Sym} {u w : List Nat} (h : Der G [X] u) (h' : Der G β w) :
    Der G (X :: β) (u ++ w) := h.app h'

theorem Der.snoc {α : List Sym} {X : Sym} {u w : List Nat} (h : Der G α u) (h' : Der G [X] w) :
    Der G (α ++ [X]) (u ++ w) := h.app h'

theorem Der.rule {r : Rule} {u : List Nat} (hr : r ∈ G) (h : Der G r.rhs u) : Der G [.n r.lhs] u := by
  have := Der.n hr h .nil
  simpa using this

theorem Der.ne_nil (hG : ∀ r ∈ G, r.rhs ≠ []) {α : List Sym} {w : List Nat} (h : Der G α w) (hα : α ≠ []) : w ≠ [] := by
  induction h with
  | nil => exact absurd rfl hα
  | t => simp
  | n hr _ _ ih _ =>
    intro e
    exact ih (hG _ hr) (List.append_eq_nil_iff.1 e).1

theorem drop_cons {α : List Sym} {X : Sym} {β : List Sym} {d : Nat} (h : α.drop d = X :: β) :
    α[d]? = some X ∧ α.drop (d + 1) = β := by
  constructor
  · rw [← List.head?_drop, h]; rfl
  · rw [← List.tail_drop, h]; rfl

theorem getElem?_mem {r : Rule} {p : Nat} (h : G[p]? = some r) : r ∈ G := List.mem_of_getElem? h

/-- The main lemma: with an item of the state on top, what the symbols after the dot derive is read, and the states
pushed on the stack are as many as the symbols. -/
theorem complete_aux (hG : Tidy G P rank R) (hV : Valid G T I) {α : List Sym} {u : List Nat} (h : Der G α u) :
    ∀ s σ p d r rest, I.It s p d → G[p]? = some r → r.rhs.drop d = α → I.La s p d rest.head? →
      ∃ s' σ', I.It s' p r.rhs.length ∧ I.La s' p r.rhs.length rest.head? ∧
        (s' :: σ').drop α.length = s :: σ ∧
        (AcceptRun G T (s' :: σ') rest → AcceptRun G T (s :: σ) (u ++ rest)) := by
  induction h with
  | nil =>
    intro s σ p d r rest hi hr hd hl
    obtain ⟨r', hr', hle⟩ := hV.rule _ _ _ hi
    rw [hr] at hr'; obtain rfl := Option.some.inj hr'
    have : d = r.rhs.length := Nat.le_antisymm hle (List.drop_eq_nil_iff.1 hd)
    subst this
    exact ⟨s, σ, hi, hl, rfl, id⟩
  | @t a α w _ ih =>
    intro s σ p d r rest hi hr hd hl
    obtain ⟨hX, hd'⟩ := drop_cons hd
    obtain ⟨s1, hn, hi1, hl1⟩ := hV.next s p d r _ hi hr hX
    obtain ⟨s', σ', hi', hl', hdrop, hrun⟩ := ih s1 (s :: σ) p (d + 1) r rest hi1 hr hd' (hl1 _ hl)
    refine ⟨s', σ', hi', hl', ?_, fun h => .shift ?_ (hrun h)⟩
    · rw [List.length_cons, ← List.drop_drop, hdrop]; rfl
    · simp only [Tables.next] at hn
      split at hn
      · rename_i s2 ha
        obtain rfl := Option.some.inj hn
        simp only [step, ha]
      · cases hn
  | @n q α u w hq hu hw ih1 ih2 =>
    intro s σ p d r rest hi hr hd hl
    obtain ⟨hX, hd'⟩ := drop_cons hd
    obtain ⟨k, hk⟩ := List.getElem?_of_mem hq
    obtain ⟨hiq, hlast, hfirst⟩ := hV.closure s p d r q.lhs k q hi hr hX hk rfl
    have hlq : I.La s k 0 (w ++ rest).head? := by
      cases w with
      | nil =>
        have : α = [] := Classical.byContradiction fun hne => hw.ne_nil hG.noEmpty hne rfl
        exact hlast (by rw [hd', this]) _ hl
      | cons a w => exact hfirst a w (by rw [hd']; exact hw)
    obtain ⟨s1, σ1, hi1, hl1, hdrop1, hrun1⟩ := ih1 s σ k 0 q (w ++ rest) hiq hk rfl hlq
    obtain ⟨s2, hn, hi2, hl2⟩ := hV.next s p d r _ hi hr hX
    obtain ⟨s', σ', hi', hl', hdrop, hrun⟩ := ih2 s2 (s :: σ) p (d + 1) r rest hi2 hr hd' (hl2 _ hl)
    refine ⟨s', σ', hi', hl', ?_, fun h => ?_⟩
    · rw [List.length_cons, ← List.drop_drop, hdrop]; rfl
    · rw [List.append_assoc]
      refine hrun1 (.more ?_ (hrun h))
      have ha := hV.reduce s1 k q _ hi1 hk hl1
      cases k with
      | zero =>
        obtain ⟨S, h0, hS, _⟩ := hG.start
        rw [h0] at hk
        obtain rfl := Option.some.inj hk
        exact absurd (List.mem_of_getElem? hX) (hS r (getElem?_mem hr))
      | succ k =>
        simp only [step, ha, popGoto, hk, hdrop1]
        simp only [Tables.next, Option.some.injEq] at hn
        rw [hn]

/-- everything derivable is accepted -/
theorem complete (hG : Tidy G P rank R) (hV : Valid G T I) {w : List Nat} (h : Der G [.n P] w) :
    AcceptRun G T [0] w := by
  obtain ⟨S, h0, _⟩ := hG.start
  obtain ⟨s', σ', hi, hl, hdrop, hrun⟩ := complete_aux hG hV h 0 [] 0 0 _ [] hV.start.1 h0 rfl hV.start.2
  rw [List.append_nil] at hrun
  refine hrun (.nil (.done ?_))
  have ha := hV.reduce s' 0 _ _ hi h0 hl
  simp only [List.head?_nil] at ha
  simp only [step, ha]

theorem Settles.det {la : Option Nat} {n m : Nat} {st : List Nat} {v v' : Verdict} (h : Settles G T la n st v)
    (h' : Settles G T la m st v') : n = m ∧ v = v' := by
  induction h generalizing m with
  | done hs =>
    cases h' with
    | done hs' => rw [hs] at hs'; exact ⟨rfl, by injection hs'⟩
    | more hs' => rw [hs] at hs'; cases hs'
  | more hs _ ih =>
    cases h' with
    | done hs' => rw [hs] at hs'; cases hs'
    | more hs' h' =>
      rw [hs] at hs'
      injection hs' with e
      subst e
      obtain ⟨rfl, rfl⟩ := ih h'
      exact ⟨rfl, rfl⟩

end Verif.LR
