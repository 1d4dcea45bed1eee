import Verif.Proofs.LexBasic
import Verif.Spec.Lexical
/-
Runs of the lexer: fuel adequacy and the segment decomposition.
-/
namespace Verif

theorem advance_length (σ : LexState) (ch : Char) (r : Str) (extra : Nat) :
    (σ.advance ch r extra).rest.length ≤ r.length := by
  simp [LexState.advance]

theorem lexStep_skip_lt {U : CharClass} {σ σ' : LexState} (h : lexStep U σ = .skip σ') :
    σ'.rest.length < σ.rest.length := by
  unfold lexStep at h
  split at h
  · simp at h
  · rename_i ch r hr
    rw [hr]
    have := advance_length σ ch r
    simp only at h
    split at h
    · split at h <;> (injection h with h; subst h; simp [LexState.advance])
    · injection h with h; subst h; have := this ‹_›; simp; omega
    · simp at h
    · simp at h

theorem lexStep_yield_lt {U : CharClass} {σ σ' : LexState} {t : STok}
    (h : lexStep U σ = .yield t σ') : σ'.rest.length < σ.rest.length := by
  unfold lexStep at h
  split at h
  · simp at h
  · rename_i ch r hr
    rw [hr]
    have := advance_length σ ch r
    simp only at h
    split at h
    · split at h <;> simp at h
    · simp at h
    · injection h with h1 h; subst h; have := this ‹_›; simp; omega
    · simp at h

theorem nextFuel_stable (U : CharClass) : ∀ (n m : Nat) (σ : LexState),
    σ.rest.length < n → σ.rest.length < m → nextFuel U n σ = nextFuel U m σ := by
  intro n
  induction n with
  | zero => intro m σ h; omega
  | succ n ih =>
    intro m σ hn hm
    obtain ⟨m, rfl⟩ : ∃ k, m = k + 1 := ⟨m - 1, by omega⟩
    simp only [nextFuel]
    split <;> try rfl
    rename_i σ' h
    have := lexStep_skip_lt h
    exact ih m σ' (by omega) (by omega)

/-- `lexNext` obeys the loop equation of `Lexer::next`, with no fuel. -/
theorem lexNext_eq (U : CharClass) (σ : LexState) :
    lexNext U σ = match lexStep U σ with
      | .eof => .none
      | .skip σ' => lexNext U σ'
      | .yield t σ' => .item t σ'
      | .panic => .panic := by
  rw [lexNext, nextFuel]
  cases h : lexStep U σ with
  | skip σ' =>
    have := lexStep_skip_lt h
    exact nextFuel_stable U _ _ _ (by omega) (by omega)
  | _ => rfl

/-- How a lexer run decomposes. -/
inductive Run (U : CharClass) : LexState → List STok → Prop
  | eof {σ} : lexStep U σ = .eof → Run U σ []
  | skip {σ σ' ts} : lexStep U σ = .skip σ' → Run U σ' ts → Run U σ ts
  | yield {σ σ' t ts} : lexStep U σ = .yield t σ' → Run U σ' ts → Run U σ (t :: ts)

/-- Runs that end in a panic. -/
inductive RunPanic (U : CharClass) : LexState → Prop
  | panic {σ} : lexStep U σ = .panic → RunPanic U σ
  | skip {σ σ'} : lexStep U σ = .skip σ' → RunPanic U σ' → RunPanic U σ
  | yield {σ σ' t} : lexStep U σ = .yield t σ' → RunPanic U σ' → RunPanic U σ

theorem lexNext_item_lt {U : CharClass} {σ σ' : LexState} {t : STok}
    (h : lexNext U σ = .item t σ') : σ'.rest.length < σ.rest.length := by
  generalize hn : σ.rest.length = n
  induction n using Nat.strongRecOn generalizing σ with
  | _ n ih =>
    rw [lexNext_eq] at h
    split at h
    · simp at h
    · rename_i σ1 h1
      have := lexStep_skip_lt h1
      have := ih _ (by omega) h rfl
      omega
    · rename_i h1
      injection h with h2 h3; subst h2 h3
      have := lexStep_yield_lt h1
      omega
    · simp at h

theorem drainFuel_stable (U : CharClass) : ∀ (n m : Nat) (σ : LexState),
    σ.rest.length < n → σ.rest.length < m → drainFuel U n σ = drainFuel U m σ := by
  intro n
  induction n with
  | zero => intro m σ h; omega
  | succ n ih =>
    intro m σ hn hm
    obtain ⟨m, rfl⟩ : ∃ k, m = k + 1 := ⟨m - 1, by omega⟩
    simp only [drainFuel]
    split <;> try rfl
    rename_i t σ' h
    have := lexNext_item_lt h
    rw [ih m σ' (by omega) (by omega)]

/-- all tokens from a state on -/
def drain (U : CharClass) (σ : LexState) : Option (List STok) :=
  drainFuel U (σ.rest.length + 1) σ

theorem lexDoc_eq_drain (U : CharClass) (doc : Str) : lexDoc U doc = drain U (.init doc) := rfl

theorem drain_eq (U : CharClass) (σ : LexState) :
    drain U σ = match lexStep U σ with
      | .eof => some []
      | .skip σ' => drain U σ'
      | .yield t σ' => (drain U σ').map (t :: ·)
      | .panic => none := by
  rw [drain, drainFuel, lexNext_eq]
  cases h : lexStep U σ with
  | eof => simp
  | panic => simp
  | yield t σ' =>
    have := lexStep_yield_lt h
    simp only [drain]
    rw [drainFuel_stable U σ.rest.length (σ'.rest.length + 1) σ' (by omega) (by omega)]
  | skip σ' =>
    have := lexStep_skip_lt h
    simp only [drain]
    rw [drainFuel]
    cases h' : lexNext U σ' with
    | none => rfl
    | panic => rfl
    | item t σ2 =>
      have := lexNext_item_lt h'
      simp only
      rw [drainFuel_stable U σ.rest.length (σ'.rest.length) σ2 (by omega) (by omega)]

theorem drain_some_iff {U : CharClass} {σ : LexState} {ts : List STok} :
    drain U σ = some ts ↔ Run U σ ts := by
  constructor
  · intro h
    generalize hn : σ.rest.length = n
    induction n using Nat.strongRecOn generalizing σ ts with
    | _ n ih =>
      rw [drain_eq] at h
      split at h
      · simp at h; subst h; exact .eof ‹_›
      · rename_i h1
        have := lexStep_skip_lt h1
        exact .skip h1 (ih _ (by omega) h rfl)
      · rename_i h1
        have := lexStep_yield_lt h1
        simp only [Option.map_eq_some_iff] at h
        obtain ⟨a, ha, rfl⟩ := h
        exact .yield h1 (ih _ (by omega) ha rfl)
      · simp at h
  · intro h
    induction h with
    | eof h => rw [drain_eq, h]
    | skip h _ ih => rw [drain_eq, h]; exact ih
    | yield h _ ih => rw [drain_eq, h]; simp [ih]

theorem drain_none_iff {U : CharClass} {σ : LexState} : drain U σ = none ↔ RunPanic U σ := by
  constructor
  · intro h
    generalize hn : σ.rest.length = n
    induction n using Nat.strongRecOn generalizing σ with
    | _ n ih =>
      rw [drain_eq] at h
      split at h
      · simp at h
      · rename_i h1
        have := lexStep_skip_lt h1
        exact .skip h1 (ih _ (by omega) h rfl)
      · rename_i h1
        have := lexStep_yield_lt h1
        simp only [Option.map_eq_none_iff] at h
        exact .yield h1 (ih _ (by omega) h rfl)
      · exact .panic ‹_›
  · intro h
    induction h with
    | panic h => rw [drain_eq, h]
    | skip h _ ih => rw [drain_eq, h]; exact ih
    | yield h _ ih => rw [drain_eq, h]; simp [ih]

theorem lexDoc_some_iff {U : CharClass} {doc : Str} {ts : List STok} :
    lexDoc U doc = some ts ↔ Run U (.init doc) ts := drain_some_iff

theorem lexDoc_none_iff {U : CharClass} {doc : Str} :
    lexDoc U doc = none ↔ RunPanic U (.init doc) := drain_none_iff

/-! ### Segments -/

/-- A step, with the consumed text made explicit. -/
inductive Steps (U : CharClass) : LexState → Seg → LexState → Prop
  | white {σ ch r} : σ.rest = ch :: r → scan U ch r = .white →
      Steps U σ (.white ch)
        (if ch = '\n' then { σ.advance ch r 0 with character := 0, line := σ.line + 1 }
         else σ.advance ch r 0)
  | comment {σ ch r n} : σ.rest = ch :: r → scan U ch r = .comment n →
      Steps U σ (.comment (ch :: r.take n)) (σ.advance ch r n)
  | token {σ ch r t len n} : σ.rest = ch :: r → scan U ch r = .token t len n →
      Steps U σ (.token ⟨⟨σ.offset, σ.line, σ.character⟩, t,
          ⟨σ.offset + len, σ.line, σ.character + len⟩⟩ (ch :: r.take n)) (σ.advance ch r n)

inductive Segs (U : CharClass) : LexState → List Seg → Prop
  | nil {σ} : σ.rest = [] → Segs U σ []
  | cons {σ s σ' l} : Steps U σ s σ' → Segs U σ' l → Segs U σ (s :: l)

theorem Steps.of_skip {U : CharClass} {σ σ' : LexState} (h : lexStep U σ = .skip σ') :
    ∃ s, Steps U σ s σ' ∧ segTokens [s] = [] := by
  unfold lexStep at h
  split at h
  · simp at h
  · rename_i ch r hr
    simp only at h
    split at h
    · rename_i hs
      refine ⟨.white ch, ?_, rfl⟩
      have := Steps.white hr hs
      split at h
      · injection h with h; rw [← h]; simp_all [LexState.advance]
      · injection h with h; rw [← h]; simp_all
    · rename_i hs
      injection h with h; rw [← h]
      exact ⟨_, Steps.comment hr hs, rfl⟩
    · simp at h
    · simp at h

theorem Steps.of_yield {U : CharClass} {σ σ' : LexState} {t : STok}
    (h : lexStep U σ = .yield t σ') :
    ∃ x, Steps U σ (.token t x) σ' := by
  unfold lexStep at h
  split at h
  · simp at h
  · rename_i ch r hr
    simp only at h
    split at h
    · split at h <;> simp at h
    · simp at h
    · rename_i tk len n hs
      injection h with h h'; subst h h'
      refine ⟨ch :: r.take n, ?_⟩
      simp only [Pos.withEnd, Nat.add_sub_cancel_left]
      exact Steps.token hr hs
    · simp at h

theorem Run.segs {U : CharClass} {σ : LexState} {ts : List STok} (h : Run U σ ts) :
    ∃ l, Segs U σ l ∧ segTokens l = ts := by
  induction h with
  | @eof σ h =>
    refine ⟨[], .nil ?_, rfl⟩
    unfold lexStep at h
    split at h
    · assumption
    · simp only at h
      split at h <;> try simp at h
      split at h <;> simp at h
  | skip h _ ih =>
    obtain ⟨l, hl, rfl⟩ := ih
    obtain ⟨s, hs, hs'⟩ := Steps.of_skip h
    refine ⟨s :: l, .cons hs hl, ?_⟩
    cases s <;> simp_all [segTokens]
  | yield h _ ih =>
    obtain ⟨l, hl, rfl⟩ := ih
    obtain ⟨x, hs⟩ := Steps.of_yield h
    exact ⟨_, .cons hs hl, rfl⟩

theorem Steps.lexStep {U : CharClass} {σ σ' : LexState} {s : Seg} (h : Steps U σ s σ') :
    lexStep U σ = match s with
      | .token t _ => .yield t σ'
      | _ => .skip σ' := by
  cases h with
  | white hr hs =>
    unfold Verif.lexStep; rw [hr]; simp only [hs]
    split <;> simp_all [LexState.advance]
  | comment hr hs => unfold Verif.lexStep; rw [hr]; simp only [hs]
  | token hr hs => unfold Verif.lexStep; rw [hr]; simp only [hs, Pos.withEnd, Nat.add_sub_cancel_left]

theorem Segs.run {U : CharClass} {σ : LexState} {l : List Seg} (h : Segs U σ l) :
    Run U σ (segTokens l) := by
  induction h with
  | nil h => exact .eof (by unfold Verif.lexStep; rw [h])
  | @cons σ s σ' l hs _ ih =>
    have := hs.lexStep
    cases s <;> simp only at this <;> simp only [segTokens]
    · exact .skip this ih
    · exact .skip this ih
    · exact .yield this ih

theorem lexDoc_segs {U : CharClass} {doc : Str} {ts : List STok} :
    lexDoc U doc = some ts ↔ ∃ l, Segs U (.init doc) l ∧ segTokens l = ts := by
  rw [lexDoc_some_iff]
  exact ⟨Run.segs, fun ⟨l, h, e⟩ => e ▸ h.run⟩

/-- What a step does to the state. -/
theorem Steps.rest {U : CharClass} {σ σ' : LexState} {s : Seg} (h : Steps U σ s σ') :
    σ.rest = s.text ++ σ'.rest ∧ σ'.offset = σ.offset + bytes s.text ∧ s.text ≠ [] ∧
    σ'.lastPosition = σ.offset ∧
    (s = .white '\n' → σ'.line = σ.line + 1 ∧ σ'.character = 0) ∧
    (s ≠ .white '\n' → σ'.line = σ.line ∧
      σ'.character = σ.character + (σ.offset - σ.lastPosition)) ∧
    (∀ t x, s = .token t x → t.start = ⟨σ.offset, σ.line, σ.character⟩) := by
  cases h with
  | white hr hs =>
    rw [hr]
    split <;> simp_all [Seg.text, LexState.advance]
  | comment hr hs => rw [hr]; simp [Seg.text, LexState.advance]
  | token hr hs =>
    rw [hr]; simp [Seg.text, LexState.advance]

theorem Segs.text {U : CharClass} {σ : LexState} {l : List Seg} (h : Segs U σ l) :
    segText l = σ.rest := by
  induction h with
  | nil h => simp [segText, h]
  | cons hs _ ih => rw [segText, ih, hs.rest.1]

theorem segText_append (a b : List Seg) : segText (a ++ b) = segText a ++ segText b := by
  induction a with
  | nil => rfl
  | cons s a ih => simp [segText, ih]

theorem segTokens_append (a b : List Seg) : segTokens (a ++ b) = segTokens a ++ segTokens b := by
  induction a with
  | nil => rfl
  | cons s a ih => cases s <;> simp [segTokens, ih]

theorem mem_segTokens {l : List Seg} {t : STok} (h : t ∈ segTokens l) :
    ∃ a x b, l = a ++ .token t x :: b := by
  induction l with
  | nil => simp [segTokens] at h
  | cons s l ih =>
    cases s with
    | token t' x =>
      simp only [segTokens, List.mem_cons] at h
      rcases h with rfl | h
      · exact ⟨[], x, l, rfl⟩
      · obtain ⟨a, y, b, rfl⟩ := ih h
        exact ⟨_ :: a, y, b, rfl⟩
    | white c =>
      obtain ⟨a, y, b, rfl⟩ := ih h
      exact ⟨_ :: a, y, b, rfl⟩
    | comment c =>
      obtain ⟨a, y, b, rfl⟩ := ih h
      exact ⟨_ :: a, y, b, rfl⟩

/-- States reached from `σ` after `pre`. -/
inductive Reach (U : CharClass) : LexState → List Seg → LexState → Prop
  | refl {σ} : Reach U σ [] σ
  | snoc {σ σ' σ'' l s} : Reach U σ l σ' → Steps U σ' s σ'' → Reach U σ (l ++ [s]) σ''

theorem Reach.cons {U : CharClass} {σ σ' σ'' : LexState} {s : Seg} {l : List Seg}
    (hs : Steps U σ s σ') (h : Reach U σ' l σ'') : Reach U σ (s :: l) σ'' := by
  induction h with
  | refl => exact Reach.snoc (l := []) .refl hs
  | snoc _ hs' ih => exact Reach.snoc (l := s :: _) ih hs'

theorem Segs.split {U : CharClass} {σ : LexState} {a b : List Seg} (h : Segs U σ (a ++ b)) :
    ∃ σ', Reach U σ a σ' ∧ Segs U σ' b := by
  induction a generalizing σ with
  | nil => exact ⟨σ, .refl, h⟩
  | cons s a ih =>
    cases h with
    | cons hs h =>
      obtain ⟨σ', h1, h2⟩ := ih h
      exact ⟨σ', h1.cons hs, h2⟩

theorem Reach.inv {U : CharClass} {σ σ' : LexState} {l : List Seg} (h : Reach U σ l σ') :
    σ.rest = segText l ++ σ'.rest ∧ σ'.offset = σ.offset + bytes (segText l) := by
  induction h with
  | refl => simp [segText]
  | snoc _ hs ih =>
    have := hs.rest
    obtain ⟨h1, h2⟩ := ih
    obtain ⟨h3, h4, _⟩ := this
    refine ⟨?_, ?_⟩
    · rw [h1, h3, segText_append]; simp [segText]
    · rw [h4, h2, segText_append, bytes_append]; simp [segText]; omega

/-! ### Runs that need not reach the end -/

/-- Some steps of the lexer. -/
inductive Path (U : CharClass) : LexState → List Seg → LexState → Prop
  | nil {σ} : Path U σ [] σ
  | cons {σ s σ' l σ''} : Steps U σ s σ' → Path U σ' l σ'' → Path U σ (s :: l) σ''

theorem Path.split {U : CharClass} {σ τ : LexState} {a b : List Seg} (h : Path U σ (a ++ b) τ) :
    ∃ σ', Reach U σ a σ' ∧ Path U σ' b τ := by
  induction a generalizing σ with
  | nil => exact ⟨σ, .refl, h⟩
  | cons s a ih =>
    cases h with
    | cons hs h =>
      obtain ⟨σ', h1, h2⟩ := ih h
      exact ⟨σ', h1.cons hs, h2⟩

theorem Path.text {U : CharClass} {σ τ : LexState} {l : List Seg} (h : Path U σ l τ) :
    segText l ++ τ.rest = σ.rest := by
  induction h with
  | nil => rfl
  | cons hs _ ih => rw [segText, List.append_assoc, ih, hs.rest.1]

theorem Segs.path {U : CharClass} {σ : LexState} {l : List Seg} (h : Segs U σ l) :
    ∃ τ, Path U σ l τ ∧ τ.rest = [] := by
  induction h with
  | nil h => exact ⟨_, .nil, h⟩
  | cons hs _ ih =>
    obtain ⟨τ, h1, h2⟩ := ih
    exact ⟨τ, .cons hs h1, h2⟩

theorem Path.trans {U : CharClass} {σ τ υ : LexState} {l l' : List Seg} (h : Path U σ l τ)
    (h' : Path U τ l' υ) : Path U σ (l ++ l') υ := by
  induction h with
  | nil => exact h'
  | cons hs _ ih => exact .cons hs (ih h')

theorem lexNext_path {U : CharClass} {σ' : LexState} {t : STok} : ∀ {σ : LexState},
    lexNext U σ = .item t σ' → ∃ l, Path U σ l σ' ∧ segTokens l = [t] := by
  intro σ
  generalize hn : σ.rest.length = n
  induction n using Nat.strongRecOn generalizing σ with
  | _ n ih =>
    intro h
    rw [lexNext_eq] at h
    cases hs : Verif.lexStep U σ with
    | eof => simp [hs] at h
    | panic => simp [hs] at h
    | skip σ1 =>
      simp only [hs] at h
      have hlt := lexStep_skip_lt hs
      obtain ⟨l, h1, h2⟩ := ih _ (by omega) rfl h
      obtain ⟨s, h3, h4⟩ := Steps.of_skip hs
      refine ⟨s :: l, .cons h3 h1, ?_⟩
      cases s <;> simp_all [segTokens]
    | yield t1 σ1 =>
      simp only [hs] at h
      injection h with h1 h2
      subst h1 h2
      obtain ⟨x, h3⟩ := Steps.of_yield hs
      exact ⟨_, .cons h3 .nil, rfl⟩

/-- all tokens from a state on, up to the end or a panic -/
def tokensFrom (U : CharClass) (σ : LexState) : List STok := yieldedFuel U (σ.rest.length + 1) σ

theorem yieldedFuel_stable (U : CharClass) : ∀ (n m : Nat) (σ : LexState),
    σ.rest.length < n → σ.rest.length < m → yieldedFuel U n σ = yieldedFuel U m σ := by
  intro n
  induction n with
  | zero => intro m σ h; omega
  | succ n ih =>
    intro m σ hn hm
    obtain ⟨m, rfl⟩ : ∃ k, m = k + 1 := ⟨m - 1, by omega⟩
    simp only [yieldedFuel]
    split <;> try rfl
    rename_i t σ' h
    have := lexNext_item_lt h
    rw [ih m σ' (by omega) (by omega)]

theorem tokensFrom_eq (U : CharClass) (σ : LexState) :
    tokensFrom U σ = match lexNext U σ with
      | .item t σ' => t :: tokensFrom U σ'
      | _ => [] := by
  rw [tokensFrom, yieldedFuel]
  cases h : lexNext U σ with
  | none => rfl
  | panic => rfl
  | item t σ' =>
    have := lexNext_item_lt h
    simp only [tokensFrom]
    rw [yieldedFuel_stable U σ.rest.length (σ'.rest.length + 1) σ' (by omega) (by omega)]

theorem tokensFrom_path (U : CharClass) (σ : LexState) :
    ∃ l τ, Path U σ l τ ∧ segTokens l = tokensFrom U σ := by
  generalize hn : σ.rest.length = n
  induction n using Nat.strongRecOn generalizing σ with
  | _ n ih =>
    rw [tokensFrom_eq]
    cases h : lexNext U σ with
    | none => exact ⟨[], σ, .nil, rfl⟩
    | panic => exact ⟨[], σ, .nil, rfl⟩
    | item t σ' =>
      have := lexNext_item_lt h
      obtain ⟨l, τ, h1, h2⟩ := ih _ (by omega) σ' rfl
      obtain ⟨l0, h3, h4⟩ := lexNext_path h
      exact ⟨l0 ++ l, τ, h3.trans h1, by rw [segTokens_append, h4, h2]; rfl⟩

theorem yielded_path (U : CharClass) (doc : Str) :
    ∃ l τ, Path U (.init doc) l τ ∧ segTokens l = yielded U doc := tokensFrom_path U (.init doc)

/-- without a panic the yielded tokens are those of the document -/
theorem yielded_of_lexDoc {U : CharClass} {doc : Str} {ts : List STok} (h : lexDoc U doc = some ts) :
    yielded U doc = ts := by
  have gen : ∀ (n : Nat) (σ : LexState) (ts : List STok), drainFuel U n σ = some ts → yieldedFuel U n σ = ts := by
    intro n
    induction n with
    | zero => intro σ ts h; simp [drainFuel] at h; subst h; rfl
    | succ n ih =>
      intro σ ts h
      simp only [drainFuel] at h
      simp only [yieldedFuel]
      cases hs : lexNext U σ with
      | none => simp [hs] at h; subst h; rfl
      | panic => simp [hs] at h
      | item t σ' =>
        simp only [hs, Option.map_eq_some_iff] at h
        obtain ⟨a, ha, rfl⟩ := h
        simp only [ih _ _ ha]
  exact gen _ _ _ h

theorem tokensFrom_step (U : CharClass) (σ : LexState) :
    tokensFrom U σ = match Verif.lexStep U σ with
      | .eof => []
      | .skip σ' => tokensFrom U σ'
      | .yield t σ' => t :: tokensFrom U σ'
      | .panic => [] := by
  rw [tokensFrom_eq, lexNext_eq]
  cases h : Verif.lexStep U σ with
  | skip σ' => simp only; rw [tokensFrom_eq]
  | _ => rfl

end Verif
