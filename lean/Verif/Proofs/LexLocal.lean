import Verif.Proofs.LexTail
import Verif.Spec.Relocate
/-
States of the lexer at a boundary, with positions; and the lexer started in the middle of a document.
-/
namespace Verif

/-- how many characters a step reads besides the first -/
def Scan.extra : Scan → Nat
  | .white => 0
  | .comment k => k
  | .token _ _ k => k
  | .panic => 0

theorem scan_keep {U : CharClass} {ch : Char} {p X X' : Str} {sc : Scan} (hXn : X ≠ []) (hX : Break X')
    (hok : TailOk (ch :: p) X) (hq : ('"' ∈ X ↔ '"' ∈ X') ∨ ∀ t l k, sc = .token t l k → t.steady)
    (hp : sc ≠ .panic) (h : scan U ch (p ++ X) = sc) (hk : sc.extra ≤ p.length) :
    scan U ch (p ++ X') = sc := by
  cases sc with
  | panic => exact absurd rfl hp
  | white => exact scan_white_of (scan_white_inv h)
  | token t l k => exact scan_tail hX hok (hq.imp id fun g => g t l k rfl) h hk
  | comment k =>
    obtain ⟨r', rfl, hr', rfl⟩ := scan_comment_inv h
    simp only [Scan.extra] at hk
    cases p with
    | nil => simp at hk
    | cons d p =>
      simp only [List.cons_append, List.cons.injEq] at hr'
      obtain ⟨rfl, rfl⟩ := hr'
      have hlen : commentLen (p ++ X) ≤ p.length := by simp at hk; omega
      obtain ⟨body, q, rfl, hb⟩ : ∃ body q, p = body ++ '*' :: ')' :: q ∧ NoClose body := by
        rcases comment_cases p with h | h
        · exact h
        · exfalso
          rcases comment_cases (p ++ X) with ⟨b, q, e, hb⟩ | hn
          · rw [e, commentLen_closed q hb] at hlen
            have he : b ++ ['*', ')'] <+: p := by
              apply List.prefix_of_prefix_length_le (l₃ := p ++ X)
              · exact ⟨q, by simp [e]⟩
              · exact List.prefix_append _ _
              · simpa using hlen
            exact h ((List.suffix_append b _).isInfix.trans he.isInfix)
          · rw [commentLen_open hn] at hlen
            have := List.length_pos_iff.mpr hXn
            simp at hlen; omega
      have e : ∀ Y : Str, commentLen (body ++ '*' :: ')' :: q ++ Y) = body.length + 2 := fun Y => by
        rw [List.append_assoc]; exact commentLen_closed (q ++ Y) hb
      rw [List.cons_append, scan_open, e, e]

/-- steps of the lexer with everything they yield -/
inductive Trace (U : CharClass) : LexState → List STok → LexState → Prop
  | here (σ : LexState) : Trace U σ [] σ
  | skip {σ σ1 σ' : LexState} {xs : List STok} : lexStep U σ = .skip σ1 → Trace U σ1 xs σ' → Trace U σ xs σ'
  | yield {σ σ1 σ' : LexState} {t : STok} {xs : List STok} : lexStep U σ = .yield t σ1 → Trace U σ1 xs σ' →
      Trace U σ (t :: xs) σ'

theorem Trace.trans {U : CharClass} {σ σ1 σ' : LexState} {xs ys : List STok} (h : Trace U σ xs σ1)
    (h' : Trace U σ1 ys σ') : Trace U σ (xs ++ ys) σ' := by
  induction h with
  | here σ => exact h'
  | skip hs _ ih => exact .skip hs (ih h')
  | yield hs _ ih => exact .yield hs (ih h')

theorem Trace.tokensFrom {U : CharClass} {σ σ' : LexState} {xs : List STok} (h : Trace U σ xs σ') :
    tokensFrom U σ = xs ++ tokensFrom U σ' ∧ drain U σ = (drain U σ').map (xs ++ ·) := by
  induction h with
  | here σ => simp
  | skip hs _ ih => rw [tokensFrom_step, drain_eq, hs]; exact ih
  | yield hs _ ih =>
    rw [tokensFrom_step, drain_eq, hs]
    simp only [ih.1, ih.2, Option.map_map, List.cons_append]
    exact ⟨trivial, rfl⟩

theorem lexNext_trace {U : CharClass} {t : STok} {σ' : LexState} : ∀ {σ : LexState},
    lexNext U σ = .item t σ' → Trace U σ [t] σ' := by
  intro σ
  generalize hn : σ.rest.length = n
  induction n using Nat.strongRecOn generalizing σ with
  | _ n ih =>
    intro h
    rw [lexNext_eq] at h
    cases hs : lexStep U σ with
    | eof => simp [hs] at h
    | panic => simp [hs] at h
    | skip σ1 =>
      simp only [hs] at h
      exact .skip hs (ih _ (hn ▸ lexStep_skip_lt hs) rfl h)
    | yield t1 σ1 =>
      simp only [hs] at h
      injection h with h1 h2
      subst h1 h2
      exact .yield hs (.here _)

theorem Calls.trace {U : CharClass} {σ σ' : LexState} {ts : List Token} (h : Calls U σ ts σ') :
    ∃ xs, Trace U σ xs σ' ∧ xs.map (·.tok) = ts := by
  induction h with
  | nil σ => exact ⟨[], .here _, rfl⟩
  | @cons _ _ _ t _ h _ ih =>
    obtain ⟨xs, h1, h2⟩ := ih
    exact ⟨t :: xs, (lexNext_trace h).trans h1, by simp [h2]⟩

theorem Trace.suffix {U : CharClass} {σ σ' : LexState} {xs : List STok} (h : Trace U σ xs σ') :
    σ'.rest <:+ σ.rest ∧ σ'.offset + bytes σ'.rest = σ.offset + bytes σ.rest := by
  have key : ∀ (σ : LexState) (ch : Char) (r : Str) (k : Nat), σ.rest = ch :: r →
      (σ.advance ch r k).rest <:+ σ.rest ∧
      (σ.advance ch r k).offset + bytes (σ.advance ch r k).rest = σ.offset + bytes σ.rest := by
    intro σ ch r k hr
    constructor
    · rw [hr]; exact (List.drop_suffix _ _).trans (List.suffix_cons _ _)
    · have := congrArg bytes (List.take_append_drop k r)
      rw [bytes_append] at this
      simp only [LexState.advance, hr, bytes] at this ⊢
      omega
  have step : ∀ (σ σ1 : LexState) (t : STok), lexStep U σ = .skip σ1 ∨ lexStep U σ = .yield t σ1 →
      σ1.rest <:+ σ.rest ∧ σ1.offset + bytes σ1.rest = σ.offset + bytes σ.rest := by
    intro σ σ1 t h
    unfold lexStep at h
    cases hr : σ.rest with
    | nil => rw [hr] at h; simp at h
    | cons ch r =>
      have hk := fun k => key σ ch r k hr
      rw [hr] at h hk
      simp only at h
      cases hs : scan U ch r with
      | white =>
        simp only [hs] at h
        split at h <;> simp at h <;> subst h <;> exact hk 0
      | comment k => simp [hs] at h; subst h; exact hk k
      | token t l k => simp [hs] at h; rw [← h.2]; exact hk k
      | panic => simp [hs] at h
  induction h with
  | here σ => exact ⟨List.suffix_refl _, rfl⟩
  | skip hs _ ih =>
    have := step _ _ ⟨⟨0, 0, 0⟩, .unknown, ⟨0, 0, 0⟩⟩ (.inl hs)
    exact ⟨ih.1.trans this.1, ih.2.trans this.2⟩
  | yield hs _ ih =>
    have := step _ _ _ (.inr hs)
    exact ⟨ih.1.trans this.1, ih.2.trans this.2⟩

/-- the text after a boundary can be exchanged -/
theorem Trace.tail {U : CharClass} {X X' : Str} (hXn : X ≠ []) (hX : Break X') :
    ∀ {σ : LexState} {xs : List STok} {σ' : LexState}, Trace U σ xs σ' → σ'.rest = X → ∀ p, σ.rest = p ++ X →
      TailOk p X → (('"' ∈ X ↔ '"' ∈ X') ∨ ∀ t ∈ xs, t.tok.steady) →
      Trace U { σ with rest := p ++ X' } xs { σ' with rest := X' } := by
  have base : ∀ (ch : Char) (p : Str) (k : Nat), TailOk (ch :: p) X → TailOk (p.drop k) X := by
    intro ch p k h
    rcases h with h | h
    · exact .inl h
    · refine .inr fun c hc => h c ?_
      simp only [List.mem_append, List.cons_append, List.mem_cons] at hc ⊢
      rcases hc with hc | hc
      · exact .inr (.inl (List.mem_of_mem_drop hc))
      · exact .inr (.inr hc)
  have dropTail : ∀ (p Y : Str) (k : Nat), k ≤ p.length → (p ++ Y).drop k = p.drop k ++ Y := fun p Y k hk => by
    rw [List.drop_append, Nat.sub_eq_zero_of_le hk, List.drop_zero]
  have adv : ∀ (σ : LexState) (ch : Char) (p : Str) (k : Nat), k ≤ p.length →
      { σ with rest := ch :: (p ++ X') }.advance ch (p ++ X') k =
        { σ.advance ch (p ++ X) k with rest := p.drop k ++ X' } := by
    intro σ ch p k hk
    simp only [LexState.advance, dropTail p X' k hk, List.take_append_of_le_length hk]
  -- splitting off the first character
  have front : ∀ {σ σ1 σ' : LexState} {xs : List STok} {p : Str}, Trace U σ1 xs σ' → σ'.rest = X →
      σ.rest = p ++ X → σ1.rest.length < σ.rest.length → ∃ ch q, p = ch :: q := by
    intro σ σ1 σ' xs p ht h1 h2 hl
    cases p with
    | cons ch q => exact ⟨ch, q, rfl⟩
    | nil =>
      have := ht.suffix.1.length_le
      rw [h1] at this; rw [h2] at hl; simp at hl; omega
  intro σ xs σ' h
  induction h with
  | here σ =>
    intro h1 p h2 _ _
    have : p = [] := by
      have := congrArg List.length h2
      rw [h1] at this
      simpa using this
    subst this
    exact .here _
  | @skip σ σ1 σ' xs hs ht ih =>
    intro h1 p h2 hok hq
    obtain ⟨ch, p, rfl⟩ := front ht h1 h2 (lexStep_skip_lt hs)
    have hsuf := ht.suffix.1
    rw [h1] at hsuf
    have hs0 := hs
    unfold lexStep at hs
    rw [h2] at hs
    simp only [List.cons_append] at hs
    cases hsc : scan U ch (p ++ X) with
    | white =>
      simp only [hsc] at hs
      have hsc' : scan U ch (p ++ X') = .white := scan_keep hXn hX hok (.inr (by simp)) (by simp) hsc (by simp [Scan.extra])
      have a0 := adv σ ch p 0 (Nat.zero_le _)
      have hs1 : lexStep U { σ with rest := ch :: p ++ X' } = .skip { σ1 with rest := p ++ X' } := by
        unfold lexStep
        simp only [List.cons_append, hsc', a0]
        split at hs
        · rename_i hn; injection hs with hs; subst hs; rw [if_pos hn]; rfl
        · rename_i hn; injection hs with hs; subst hs; rw [if_neg hn]; rfl
      have hr1 : σ1.rest = p ++ X := by
        split at hs <;> injection hs with hs <;> subst hs <;> rfl
      exact .skip hs1 (ih h1 p hr1 (by simpa using base ch p 0 hok) hq)
    | comment k =>
      simp only [hsc] at hs
      injection hs with hs
      have hr1 : σ1.rest = (p ++ X).drop k := by subst hs; rfl
      have hk : k ≤ p.length := drop_tail hXn (hr1 ▸ hsuf)
      have hsc' := scan_keep (sc := .comment k) hXn hX hok (.inr (by simp)) (by simp) hsc hk
      have hs1 : lexStep U { σ with rest := ch :: p ++ X' } = .skip { σ1 with rest := p.drop k ++ X' } := by
        unfold lexStep
        simp only [List.cons_append, hsc', adv σ ch p k hk]
        rw [hs]
      exact .skip hs1 (ih h1 (p.drop k) (by rw [hr1, dropTail p X k hk]) (base ch p k hok) hq)
    | token t l k => simp [hsc] at hs
    | panic => simp [hsc] at hs
  | @yield σ σ1 σ' t xs hs ht ih =>
    intro h1 p h2 hok hq
    obtain ⟨ch, p, rfl⟩ := front ht h1 h2 (lexStep_yield_lt hs)
    have hsuf := ht.suffix.1
    rw [h1] at hsuf
    unfold lexStep at hs
    rw [h2] at hs
    simp only [List.cons_append] at hs
    cases hsc : scan U ch (p ++ X) with
    | white => simp only [hsc] at hs; split at hs <;> simp at hs
    | comment k => simp [hsc] at hs
    | panic => simp [hsc] at hs
    | token t' l k =>
      simp only [hsc] at hs
      injection hs with hs1 hs2
      have hr1 : σ1.rest = (p ++ X).drop k := by subst hs2; rfl
      have hk : k ≤ p.length := drop_tail hXn (hr1 ▸ hsuf)
      have htok : t.tok = t' := by subst hs1; rfl
      have hsc' := scan_keep (sc := .token t' l k) hXn hX hok
        (hq.imp id fun g a b c e => by injection e with e; rw [← e, ← htok]; exact g t (by simp)) (by simp) hsc hk
      have hs1 : lexStep U { σ with rest := ch :: p ++ X' } = .yield t { σ1 with rest := p.drop k ++ X' } := by
        unfold lexStep
        simp only [List.cons_append, hsc', adv σ ch p k hk]
        rw [← hs1, ← hs2]
      exact .yield hs1 (ih h1 (p.drop k) (by rw [hr1, dropTail p X k hk]) (base ch p k hok)
        (hq.imp id fun g t' ht' => g t' (by simp [ht'])))

/-! ### Starting in the middle -/

/-- two lexers with the same text left to read, the second in a document with more text before -/
structure Shifted (o l c d : Nat) (σ τ : LexState) : Prop where
  rest : τ.rest = σ.rest
  offset : τ.offset = σ.offset + o
  line : τ.line = σ.line + l
  start : σ.offset = 0 → σ.line = 0 ∧ σ.character = 0 ∧ τ.character = c ∧
    c + (τ.offset - τ.lastPosition) = d ∧ σ.lastPosition = 0
  later : σ.offset ≠ 0 → τ.character = σ.character + (if σ.line = 0 then d else 0) ∧
    τ.lastPosition = σ.lastPosition + o

theorem bytes_cons_pos (ch : Char) (r : Str) : 0 < bytes (ch :: r) := by
  have := length_le_bytes (ch :: r)
  rw [List.length_cons] at this; omega

theorem Shifted.advance {o l c d : Nat} {σ τ : LexState} (h : Shifted o l c d σ τ) (ch : Char) (r : Str)
    (k : Nat) : Shifted o l c d (σ.advance ch r k) (τ.advance ch r k) ∧ (σ.advance ch r k).offset ≠ 0 := by
  have hpos := bytes_cons_pos ch (r.take k)
  have hne : (σ.advance ch r k).offset ≠ 0 := by simp only [LexState.advance]; omega
  refine ⟨⟨rfl, ?_, h.line, fun e => absurd e hne, fun _ => ?_⟩, hne⟩
  · have := h.offset; simp only [LexState.advance]; omega
  · have h1 := h.offset
    simp only [LexState.advance]
    refine ⟨?_, h1⟩
    by_cases h0 : σ.offset = 0
    · obtain ⟨a, b, c', d', e⟩ := h.start h0
      simp only [a, if_true, b, c', h0]; omega
    · obtain ⟨a, b⟩ := h.later h0
      by_cases hl : σ.line = 0 <;> simp only [hl, if_true, if_false] at a ⊢ <;> omega

theorem Shifted.run {U : CharClass} {o l c d : Nat} (σ τ : LexState) (h : Shifted o l c d σ τ) :
    tokensFrom U τ = (tokensFrom U σ).map (STok.relocate o l c d) ∧
    drain U τ = (drain U σ).map (List.map (STok.relocate o l c d)) := by
  generalize hn : σ.rest.length = n
  induction n using Nat.strongRecOn generalizing σ τ with
  | _ n ih =>
    rw [tokensFrom_step, tokensFrom_step U σ, drain_eq, drain_eq U σ]
    have hlt1 := fun σ' => lexStep_skip_lt (U := U) (σ := σ) (σ' := σ')
    have hlt2 := fun t σ' => lexStep_yield_lt (U := U) (σ := σ) (t := t) (σ' := σ')
    unfold lexStep at hlt1 hlt2 ⊢
    rw [h.rest]
    cases hr : σ.rest with
    | nil => simp
    | cons ch r =>
      simp only [hr] at hlt1 hlt2 ⊢
      cases hsc : scan U ch r with
      | panic => simp
      | white =>
        simp only [hsc] at hlt1 ⊢
        have ha := h.advance ch r 0
        by_cases hc : (ch == '\n') = true
        · simp only [hc, if_true] at hlt1 ⊢
          refine ih _ (by rw [← hn, hr]; exact hlt1 _ rfl) _ _ ⟨ha.1.rest, ha.1.offset, ?_, fun e => absurd e ha.2,
            fun e => ⟨by simp, (ha.1.later e).2⟩⟩ rfl
          have := ha.1.line; simp only; omega
        · simp only [hc] at hlt1 ⊢
          exact ih _ (by rw [← hn, hr]; exact hlt1 _ rfl) _ _ ha.1 rfl
      | comment k =>
        simp only [hsc] at hlt1 ⊢
        exact ih _ (by rw [← hn, hr]; exact hlt1 _ rfl) _ _ (h.advance ch r k).1 rfl
      | token t len k =>
        simp only [hsc] at hlt2 ⊢
        obtain ⟨i1, i2⟩ := ih _ (by rw [← hn, hr]; exact hlt2 _ _ rfl) _ _ (h.advance ch r k).1 rfl
        have ht : (⟨⟨τ.offset, τ.line, τ.character⟩, t, Pos.withEnd ⟨τ.offset, τ.line, τ.character⟩ (τ.offset + len)⟩ : STok) =
            STok.relocate o l c d ⟨⟨σ.offset, σ.line, σ.character⟩, t, Pos.withEnd ⟨σ.offset, σ.line, σ.character⟩ (σ.offset + len)⟩ := by
          have h1 := h.offset
          have h2 := h.line
          have h3 : τ.character = σ.character +
              (if σ.line = 0 then (if σ.offset = 0 then c else d) else 0) := by
            by_cases h0 : σ.offset = 0
            · obtain ⟨a, b, c', -, -⟩ := h.start h0
              simp [a, b, c', h0]
            · rw [(h.later h0).1]; simp [h0]
          simp only [STok.relocate, Pos.withEnd, STok.mk.injEq, Pos.mk.injEq, true_and]
          refine ⟨⟨h1, h2, h3⟩, by omega, h2, ?_⟩
          rw [h3]; omega
        rw [i1, i2, ht]
        simp [Option.map_map, Function.comp_def]

end Verif
