import Verif.Model.Machine
import Verif.Proofs.LexRun
/-
The counters of the lexer stay below the length of the document.
-/
namespace Verif

/-- arithmetic that is right whenever the true result is in `0 … W-1` -/
structure Arith.Exact (m : Arith) (W : Nat) : Prop where
  add : ∀ a b, a + b < W → m.add a b = some (a + b)
  sub : ∀ a b, b ≤ a → a < W → m.sub a b = some (a - b)

theorem Arith.checked_exact (W : Nat) : (Arith.checked W).Exact W where
  add a b h := by simp [Arith.checked, h]
  sub a b h _ := by simp [Arith.checked, h]

theorem Arith.wrapping_exact (W : Nat) : (Arith.wrapping W).Exact W where
  add a b h := by simp [Arith.wrapping, Nat.mod_eq_of_lt h]
  sub a b h hW := by
    have : b % W = b := Nat.mod_eq_of_lt (by omega)
    simp only [Arith.wrapping, this]
    rw [show a + (W - b) = (a - b) + W by omega, Nat.add_mod_right, Nat.mod_eq_of_lt (by omega)]

/-- the state is within a document of `n` bytes -/
structure LexState.Inside (σ : LexState) (n : Nat) : Prop where
  rest : σ.offset + bytes σ.rest = n
  character : σ.character ≤ σ.lastPosition
  last : σ.lastPosition ≤ σ.offset
  line : σ.line ≤ σ.offset

theorem LexState.inside_init (doc : Str) : (LexState.init doc).Inside (bytes doc) :=
  ⟨by simp [LexState.init], by simp [LexState.init], by simp [LexState.init], by simp [LexState.init]⟩

theorem bytes_take_drop (s : Str) (n : Nat) : bytes (s.take n) + bytes (s.drop n) = bytes s := by
  rw [← bytes_append, List.take_append_drop]

theorem LexState.Inside.advance {σ : LexState} {n : Nat} (h : σ.Inside n) {ch : Char} {r : Str}
    (hr : σ.rest = ch :: r) (extra : Nat) : (σ.advance ch r extra).Inside n := by
  obtain ⟨h1, h2, h3, h4⟩ := h
  rw [hr] at h1
  have := bytes_take_drop r extra
  constructor <;> simp [LexState.advance] at * <;> omega

theorem lexStep_inside_skip {U : CharClass} {σ σ' : LexState} {n : Nat} (h : σ.Inside n)
    (hs : lexStep U σ = .skip σ') : σ'.Inside n := by
  unfold lexStep at hs
  split at hs
  · simp at hs
  · rename_i ch r hr
    simp only at hs
    split at hs
    · have := h.advance hr 0
      split at hs <;> (injection hs with hs; subst hs)
      · obtain ⟨h1, h2, h3, h4⟩ := this
        refine ⟨h1, Nat.zero_le _, h3, ?_⟩
        have := h.line
        have := bytes_pos (s := ch :: List.take 0 r) (by simp)
        show (σ.advance ch r 0).line + 1 ≤ (σ.advance ch r 0).offset
        simp only [LexState.advance] at *
        omega
      · exact this
    · injection hs with hs; subst hs; exact h.advance hr _
    · simp at hs
    · simp at hs

theorem lexStep_inside_yield {U : CharClass} {σ σ' : LexState} {t : STok} {n : Nat} (h : σ.Inside n)
    (hs : lexStep U σ = .yield t σ') : σ'.Inside n ∧ t.stop.position ≤ n ∧ t.start.position ≤ t.stop.position ∧
      t.start.column ≤ t.start.position ∧ t.stop.column ≤ t.stop.position ∧ t.start.line ≤ t.start.position ∧
      t.stop.line = t.start.line := by
  unfold lexStep at hs
  split at hs
  · simp at hs
  · rename_i ch r hr
    simp only at hs
    split at hs
    · split at hs <;> simp at hs
    · simp at hs
    · rename_i tk len extra hsc
      injection hs with h1 h2
      subst h1 h2
      obtain ⟨m, hm⟩ := scan_lexeme hsc
      obtain ⟨q, hq⟩ := hm.pre
      have hb : bytes m + bytes q = bytes σ.rest := by rw [← bytes_append, hq, hr]
      have := hm.len_eq
      have h1 := h.rest
      have h2 := h.character
      have h3 := h.last
      have h4 := h.line
      refine ⟨h.advance hr _, ?_, ?_, ?_, ?_, ?_, rfl⟩ <;> simp only [Pos.withEnd] <;> omega
    · simp at hs

/-- one step: machine integers do the same -/
theorem lexStepM_eq {m : Arith} {U : CharClass} {W n : Nat} (hm : m.Exact W) (hn : n < W) {σ : LexState}
    (h : σ.Inside n) : lexStepM m U σ = lexStep U σ := by
  have h1 := h.rest
  have h2 := h.character
  have h3 := h.last
  have h4 := h.line
  unfold lexStepM lexStep
  cases hr : σ.rest with
  | nil => rfl
  | cons ch r =>
    have hch : 0 < ch.utf8Size := Char.utf8Size_pos ch
    rw [hr] at h1
    have hb : bytes (ch :: r) = ch.utf8Size + bytes r := by simp
    have e1 : (m.sub σ.offset σ.lastPosition).bind (m.add σ.character)
        = some (σ.character + (σ.offset - σ.lastPosition)) := by
      rw [hm.sub _ _ h3 (by omega)]
      exact hm.add _ _ (by omega)
    simp only [e1]
    cases hs : scan U ch r with
    | panic => rfl
    | comment extra => rfl
    | white =>
      simp only
      split
      · rw [hm.add _ _ (show σ.line + 1 < W by omega)]
        simp [LexState.advance]
      · simp [LexState.advance]
    | token t len extra =>
      obtain ⟨x, hx⟩ := scan_lexeme hs
      obtain ⟨q, hq⟩ := hx.pre
      have hxq : bytes x + bytes q = bytes (ch :: r) := by rw [← bytes_append, hq]
      have hl := hx.len_eq
      simp only
      rw [hm.add _ _ (show σ.offset + len < W by omega)]
      have hextra : extra = len - 1 := by
        by_cases hu : t = .unknown
        · obtain ⟨a, b⟩ := hx.unknown hu
          rw [← hl, a, b]; rfl
        · obtain ⟨_, _, b⟩ := hx.text hu
          omega
      have e2 : restM m σ.offset (σ.offset + len) len r = some (r.drop extra) := by
        unfold restM
        by_cases hlen : len > 1
        · rw [if_pos hlen, hm.sub _ _ (by omega) (by omega)]
          simp only [Option.bind_some]
          rw [hm.sub _ _ (by omega) (by omega)]
          simp only [Option.map_some]
          congr 2
          omega
        · rw [if_neg hlen, hextra, show len - 1 = 0 by omega]; rfl
      have e3 : Pos.withEndM m { position := σ.offset, line := σ.line, column := σ.character } (σ.offset + len)
          = some (Pos.withEnd { position := σ.offset, line := σ.line, column := σ.character } (σ.offset + len)) := by
        unfold Pos.withEndM
        rw [hm.sub _ _ (by simp) (by omega)]
        simp only [Option.bind_some]
        rw [hm.add _ _ (by omega)]
        rfl
      simp only [e2, e3]
      have e4 : r.take (r.length - (r.drop extra).length) = r.take extra := by
        rw [List.length_drop]
        by_cases hx : extra ≤ r.length
        · rw [show r.length - (r.length - extra) = extra by omega]
        · rw [show r.length - (r.length - extra) = r.length by omega, List.take_length,
            List.take_of_length_le (by omega)]
      rw [e4]
      rfl

theorem nextFuelM_eq {m : Arith} {U : CharClass} {W n : Nat} (hm : m.Exact W) (hn : n < W) :
    ∀ (k : Nat) {σ : LexState}, σ.Inside n → nextFuelM m U k σ = nextFuel U k σ := by
  intro k
  induction k with
  | zero => intro σ _; rfl
  | succ k ih =>
    intro σ h
    simp only [nextFuelM, nextFuel, lexStepM_eq hm hn h]
    cases hs : lexStep U σ with
    | skip σ' => exact ih (lexStep_inside_skip h hs)
    | _ => rfl

theorem nextFuel_inside {U : CharClass} {n : Nat} : ∀ (k : Nat) {σ σ' : LexState} {t : STok}, σ.Inside n →
    nextFuel U k σ = .item t σ' → σ'.Inside n ∧ t.stop.position ≤ n ∧ t.start.position ≤ t.stop.position ∧
      t.start.column ≤ t.start.position ∧ t.stop.column ≤ t.stop.position ∧ t.start.line ≤ t.start.position ∧
      t.stop.line = t.start.line := by
  intro k
  induction k with
  | zero => intro σ σ' t _ h; simp [nextFuel] at h
  | succ k ih =>
    intro σ σ' t hi h
    simp only [nextFuel] at h
    cases hs : lexStep U σ with
    | eof => simp [hs] at h
    | panic => simp [hs] at h
    | skip τ => rw [hs] at h; exact ih (lexStep_inside_skip hi hs) h
    | yield u τ =>
      rw [hs] at h
      injection h with h1 h2
      subst h1 h2
      exact lexStep_inside_yield hi hs

theorem drainFuelM_eq {m : Arith} {U : CharClass} {W n : Nat} (hm : m.Exact W) (hn : n < W) :
    ∀ (k : Nat) {σ : LexState}, σ.Inside n → drainFuelM m U k σ = drainFuel U k σ := by
  intro k
  induction k with
  | zero => intro σ _; rfl
  | succ k ih =>
    intro σ h
    simp only [drainFuelM, drainFuel]
    have : lexNextM m U σ = lexNext U σ := nextFuelM_eq hm hn _ h
    rw [this]
    cases hs : lexNext U σ with
    | item t σ' => simp only [ih (nextFuel_inside _ h hs).1]
    | _ => rfl

theorem yieldedFuelM_eq {m : Arith} {U : CharClass} {W n : Nat} (hm : m.Exact W) (hn : n < W) :
    ∀ (k : Nat) {σ : LexState}, σ.Inside n → yieldedFuelM m U k σ = yieldedFuel U k σ := by
  intro k
  induction k with
  | zero => intro σ _; rfl
  | succ k ih =>
    intro σ h
    simp only [yieldedFuelM, yieldedFuel]
    have : lexNextM m U σ = lexNext U σ := nextFuelM_eq hm hn _ h
    rw [this]
    cases hs : lexNext U σ with
    | item t σ' => simp only [ih (nextFuel_inside _ h hs).1]
    | _ => rfl

theorem yieldedFuel_inside {U : CharClass} {n : Nat} : ∀ (k : Nat) {σ : LexState} {t : STok}, σ.Inside n →
    t ∈ yieldedFuel U k σ → t.stop.position ≤ n ∧ t.start.position ≤ t.stop.position ∧
      t.start.column ≤ t.start.position ∧ t.stop.column ≤ t.stop.position ∧ t.start.line ≤ t.start.position ∧
      t.stop.line = t.start.line := by
  intro k
  induction k with
  | zero => intro σ t _ h; simp [yieldedFuel] at h
  | succ k ih =>
    intro σ t hi h
    simp only [yieldedFuel] at h
    cases hs : lexNext U σ with
    | none => simp [hs] at h
    | panic => simp [hs] at h
    | item u τ =>
      rw [hs] at h
      obtain ⟨ha, hb⟩ := nextFuel_inside _ hi hs
      rcases List.mem_cons.1 h with rfl | h
      · exact hb
      · exact ih ha h

end Verif
