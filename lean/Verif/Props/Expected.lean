import Verif.Props.LR
/-
C61, continued: when the list of expected tokens is complete.
-/
namespace Verif

open LR

/-- `st` is the stack of the parser directly after shifting the tokens -/
inductive StackAfter (T : Tables) : List STok → List Nat → Prop
  | start : StackAfter T [] [0]
  | shift {got : List STok} {st st' : List Nat} {t : STok} {a n : Nat} : StackAfter T got st → code t.tok = some a →
      Settles desugared T (some a) n st (.shifted st') → StackAfter T (got ++ [t]) st'

theorem StackAfter.inv {T : Tables} {I : Items} (hV : Valid desugared T I) {fin : Nat → Prop}
    (hset : Settling desugared T I (num .Program) (fun x => lrRanks[x]?.getD 0) 5 fin) {got : List STok}
    {st : List Nat} (h : StackAfter T got st) :
    ∃ w k, Coded code got w ∧ Good desugared T I (fun x => lrRanks[x]?.getD 0) 5 fin st w k ∧
      LR.Comp desugared T (num .Program) st w := by
  induction h with
  | start => exact ⟨[], 0, .nil, good_start fin, fun z hz => complete lrTidy' hV (by simpa using hz)⟩
  | shift _ ha hs ih =>
    obtain ⟨w, k, hc, hg, hcomp⟩ := ih
    obtain ⟨m, v, hs', hcase⟩ := hset hg (some _)
    obtain ⟨_, rfl⟩ := hs.det hs'
    rcases hcase with ⟨b, st', k', hb, e, hg', _⟩ | ⟨h1, _⟩ | ⟨st', e, _⟩
    · obtain rfl := Option.some.inj hb
      injection e with e
      subst e
      exact ⟨_, k', hc.snoc ha, hg', hcomp.shift hs⟩
    · cases h1
    · cases e

/-- Directly after shifting a token, the tokens the simulation accepts are exactly those that can come next. -/
theorem C61_exact {T : Tables} {I : Items} (hV : Valid desugared T I) {got : List STok} {st : List Nat}
    (h : StackAfter T got st) (a : Nat) :
    Accepts desugared T st a ↔ ∃ t' rest, code t' = some a ∧ Gen [.non .Program] (got.map (·.tok) ++ t' :: rest) := by
  obtain ⟨fin, hset⟩ := settle lrTidy' hV
  obtain ⟨w, k, hc, hg, hcomp⟩ := h.inv hV hset
  constructor
  · intro ha
    obtain ⟨t, h1, rest, h2⟩ := accepts_continues hset hc hg ha
    exact ⟨t, rest, h1, h2⟩
  · rintro ⟨t, rest, ht, hgen⟩
    rw [gen_iff_der (start := .Program)] at hgen
    obtain ⟨v, hv, hd⟩ := hgen
    have e : ∃ z, v = w ++ a :: z := by
      simp only [Coded] at hc
      rw [List.map_append, List.map_cons, ht] at hv
      have hl : (got.map (·.tok)).map code = w.map some := by rw [← hc, List.map_map]; rfl
      rw [hl] at hv
      have h1 := congrArg (List.take w.length) hv
      have h2 := congrArg (List.drop w.length) hv
      rw [List.take_left' (by simp), ← List.map_take] at h1
      rw [List.drop_left' (by simp), ← List.map_drop] at h2
      have h3 := (List.map_inj_right (fun _ _ e => Option.some.inj e)).1 h1
      cases h4 : v.drop w.length with
      | nil => rw [h4] at h2; cases h2
      | cons b z =>
        rw [h4, List.map_cons] at h2
        injection h2 with h5 h6
        obtain rfl := Option.some.inj h5
        refine ⟨z, ?_⟩
        rw [← h4]
        conv => lhs; rw [← List.take_append_drop w.length v]
        rw [← h3]
    obtain ⟨z, rfl⟩ := e
    have := hcomp _ hd
    cases this with
    | cons h1 _ => exact ⟨_, _, h1, .inr ⟨_, rfl⟩⟩

/-- Where the stack of a rejected token comes from: from the stack after the tokens read, by the reductions made on
account of the rejected token (none if the token is no terminal of the grammar file at all). -/
theorem bad_token_stack {T : Tables} {chars : CharClass} {n : Nat} {σ : LexState} {st0 : List Nat} {got0 : List STok}
    {o : LR.Outcome} (h : Drive desugared T code chars n σ st0 got0 o) :
    StackAfter T got0 st0 → ∀ got t st, o = .badToken got t st → ∃ st1, StackAfter T got st1 ∧
      ((code t.tok = none ∧ st = st1) ∨ ∃ a m, code t.tok = some a ∧ Settles desugared T (some a) m st1 (.error st)) := by
  induction h with
  | shift hl ha hs _ ih => intro h0; exact ih (h0.shift ha hs)
  | noTerminal hl ha => intro h0 got t st e; cases e; exact ⟨_, h0, .inl ⟨ha, rfl⟩⟩
  | badToken hl ha hs => intro h0 got t st e; cases e; exact ⟨_, h0, .inr ⟨_, _, ha, hs⟩⟩
  | _ => intro h0 got t st e; cases e

/-- the same at the end of the input -/
theorem bad_eof_stack {T : Tables} {chars : CharClass} {n : Nat} {σ : LexState} {st0 : List Nat} {got0 : List STok}
    {o : LR.Outcome} (h : Drive desugared T code chars n σ st0 got0 o) :
    StackAfter T got0 st0 → ∀ got st, o = .badEof got st → ∃ st1 m, StackAfter T got st1 ∧
      Settles desugared T none m st1 (.error st) := by
  induction h with
  | shift hl ha hs _ ih => intro h0; exact ih (h0.shift ha hs)
  | badEof hl hs => intro h0 got st e; cases e; exact ⟨_, _, h0, hs⟩
  | _ => intro h0 got st e; cases e

theorem settles_at_once {T : Tables} {la : Option Nat} {n : Nat} {st st' : List Nat}
    (h : Settles desugared T la n st (.error st')) (he : ∀ s σ, st = s :: σ → T.action s la = .error) : st' = st := by
  have hstep : LR.step desugared T la st = .done (.error st) ∨ LR.step desugared T la st = .done .stuck := by
    cases st with
    | nil => exact .inr rfl
    | cons s σ =>
      have := he s σ rfl
      left
      unfold LR.step
      simp only [this]
  rcases hstep with e | e
  · obtain ⟨_, e'⟩ := h.det (.done e)
    injection e'
  · obtain ⟨_, e'⟩ := h.det (.done e)
    cases e'

/-- If the table has no action for a rejected token in the state reached by shifting the token before it (no reduction is
made on account of it; always so for an unrecognised character), the list of expected tokens is complete, too. -/
theorem C61_complete {T : Tables} {I : Items} (hV : Valid desugared T I) {chars : CharClass} {n : Nat} {doc : Str}
    {got : List STok} {t : STok} {st : List Nat}
    (h : Drive desugared T code chars n (.init doc) [0] [] (.badToken got t st))
    (hone : ∀ s σ a, StackAfter T got (s :: σ) → code t.tok = some a → T.action s (some a) = .error) (a : Nat) :
    Accepts desugared T st a ↔ ∃ t' rest, code t' = some a ∧ Gen [.non .Program] (got.map (·.tok) ++ t' :: rest) := by
  obtain ⟨st1, h1, h2⟩ := bad_token_stack h .start got t st rfl
  have e : st = st1 := by
    rcases h2 with ⟨_, e⟩ | ⟨a, m, ha, hs⟩
    · exact e
    · exact settles_at_once hs fun s σ e => hone s σ a (e ▸ h1) ha
  rw [e]
  exact C61_exact hV h1 a

/-- The end of the input: the same. -/
theorem C61_complete_end {T : Tables} {I : Items} (hV : Valid desugared T I) {chars : CharClass} {n : Nat} {doc : Str}
    {got : List STok} {st : List Nat} (h : Drive desugared T code chars n (.init doc) [0] [] (.badEof got st))
    (hone : ∀ s σ, StackAfter T got (s :: σ) → T.action s none = .error) (a : Nat) :
    Accepts desugared T st a ↔ ∃ t' rest, code t' = some a ∧ Gen [.non .Program] (got.map (·.tok) ++ t' :: rest) := by
  obtain ⟨st1, m, h1, h2⟩ := bad_eof_stack h .start got st rfl
  rw [settles_at_once h2 fun s σ e => hone s σ (e ▸ h1)]
  exact C61_exact hV h1 a

/-- An unrecognised character (or any token that is no terminal of the grammar file): the message lists exactly the
names of the tokens that could have come in its place. -/
theorem C61_unknown {T : Tables} {I : Items} (hV : Valid desugared T I) {names : List (Nat × Str)} {chars : CharClass}
    {n : Nat} {doc : Str} {got : List STok} {t : STok} {st : List Nat}
    (h : Drive desugared T code chars n (.init doc) [0] [] (.badToken got t st)) (ht : code t.tok = none) (s : Str) :
    s ∈ expectedNames desugared T names st ↔
      ∃ a t' rest, (a, s) ∈ names ∧ code t' = some a ∧ Gen [.non .Program] (got.map (·.tok) ++ t' :: rest) := by
  have := C61_complete hV h (fun s σ a _ ha => by rw [ht] at ha; cases ha)
  simp only [expectedNames, List.mem_map, List.mem_filter, decide_eq_true_eq, this]
  constructor
  · rintro ⟨⟨a, s'⟩, ⟨hm, t', rest, h1, h2⟩, rfl⟩
    exact ⟨a, t', rest, hm, h1, h2⟩
  · rintro ⟨a, t', rest, hm, h1, h2⟩
    exact ⟨(a, s), ⟨hm, t', rest, h1, h2⟩, rfl⟩

/-- in particular -/
theorem C61_unknown_char : code .unknown = none := by decide +kernel

set_option maxRecDepth 100000 in
/-- A document that begins with an unrecognised character: with the tables of tools/lr_tables.py, the parser rejects it, and
`C61_unknown` applies: exactly `scilla_version` is expected. -/
theorem C61_unknown_witness : ∃ n t st, Drive desugared demoTables code demoU n (.init (str! "? x")) [0] [] (.badToken [] t st) ∧
    code t.tok = none ∧ (∃ a, code .scillaVersion = some a ∧ Accepts desugared demoTables st a) ∧
    ∃ a, code .contract = some a ∧ ¬ Accepts desugared demoTables st a := by
  rw [← lrRules_eq]
  have hl : ∃ t σ', lexNext demoU (.init (str! "? x")) = .item t σ' ∧ t.tok = .unknown :=
    ⟨⟨⟨0, 0, 0⟩, .unknown, ⟨0, 0, 0⟩⟩, ⟨str! " x", 1, 0, 0, 0⟩, by decide +kernel, rfl⟩
  obtain ⟨t, σ', h1, h2⟩ := hl
  have hs : runs lrRules demoTables (some 44) 1 [0] = some (.shifted [2, 0]) := by decide +kernel
  have h3 : runs lrRules demoTables (some 33) 1 [0] = some (.error [0]) := by decide +kernel
  obtain ⟨k1, hk1⟩ := settles_of_runs hs
  obtain ⟨k2, hk2⟩ := settles_of_runs h3
  refine ⟨0, t, [0], .noTerminal h1 (by rw [h2]; exact C61_unknown_char), by rw [h2]; exact C61_unknown_char,
    ⟨44, by decide +kernel, k1, _, hk1, .inr ⟨_, rfl⟩⟩, 33, by decide +kernel, ?_⟩
  rintro ⟨n, v, hn, hv⟩
  obtain ⟨_, rfl⟩ := hn.det hk2
  rcases hv with e | ⟨_, e⟩ <;> cases e

/-- shifting several tokens, by evaluation -/
def feeds (G : List Rule) (T : Tables) : List Token → List Nat → Option (List Nat)
  | [], st => some st
  | t :: ts, st =>
    match code t with
    | none => none
    | some a => match runs G T (some a) 40 st with | some (.shifted st') => feeds G T ts st' | _ => none

theorem stackAfter_of_feeds {T : Tables} : ∀ {ts : List Token} {st st' : List Nat} {got : List STok},
    StackAfter T got st → feeds desugared T ts st = some st' →
    StackAfter T (got ++ ts.map fun t => ⟨default, t, default⟩) st'
  | [], st, st', got, h, e => by
    simp only [feeds, Option.some.injEq] at e
    subst e
    simpa using h
  | t :: ts, st, st', got, h, e => by
    unfold feeds at e
    split at e
    · cases e
    · rename_i a ha
      split at e
      · rename_i st1 hs
        obtain ⟨k, hk⟩ := settles_of_runs hs
        have := stackAfter_of_feeds (h.shift (t := ⟨default, t, default⟩) ha hk) e
        simpa using this
      · cases e

set_option maxRecDepth 100000 in
/-- The condition of `C61_complete` cannot be dropped: with the tables of tools/lr_tables.py (which fit the grammar), after
`scilla_version 0 import A import B` the token `as` can come, but if the next token is `C` the parser reduces before it
sees the error, and `as` is missing in the list of expected tokens. -/
theorem C61_incomplete_witness : ∃ got st1 st m a b, StackAfter demoTables got st1 ∧ code (.customIdentifier (str! "C")) = some a ∧
    Settles desugared demoTables (some a) m st1 (.error st) ∧ code .as_ = some b ∧
    Accepts desugared demoTables st1 b ∧ ¬ Accepts desugared demoTables st b := by
  have h1 : ∃ st1 st st2 a b, feeds lrRules demoTables [.scillaVersion, .number (str! "0"), .import_, .customIdentifier (str! "A"),
      .import_, .customIdentifier (str! "B")] [0] = some st1 ∧ code (.customIdentifier (str! "C")) = some a ∧
      runs lrRules demoTables (some a) 40 st1 = some (.error st) ∧ code .as_ = some b ∧
      runs lrRules demoTables (some b) 40 st1 = some (.shifted st2) ∧
      ∃ st3, runs lrRules demoTables (some b) 40 st = some (.error st3) := by
    refine ⟨_, _, _, _, _, rfl, rfl, rfl, rfl, rfl, _, rfl⟩
  rw [← lrRules_eq]
  obtain ⟨st1, st, st2, a, b, e1, e2, e3, e4, e5, st3, e6⟩ := h1
  obtain ⟨m, hm⟩ := settles_of_runs e3
  obtain ⟨k1, hk1⟩ := settles_of_runs e5
  obtain ⟨k2, hk2⟩ := settles_of_runs e6
  rw [lrRules_eq] at e1
  refine ⟨_, st1, st, m, a, b, stackAfter_of_feeds .start e1, e2, hm, e4, ⟨k1, _, hk1, .inr ⟨_, rfl⟩⟩, ?_⟩
  rintro ⟨n, v, hn, hv⟩
  obtain ⟨_, rfl⟩ := hn.det hk2
  rcases hv with e | ⟨_, e⟩ <;> cases e

end Verif
