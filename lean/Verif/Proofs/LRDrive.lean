import Verif.Proofs.LRSound
import Verif.Model.LRParse
import Verif.Proofs.LexRun
import Verif.Props.ErrorText
/-
The LR driver on documents: with valid tables for the grammar of the language it does what `fromStr` says.
-/
namespace Verif.LR

variable {G : List Rule} {T : Tables} {I : Items} {P : Nat} {rank : Nat → Nat} {R : Nat} {code : Token → Option Nat}

/-- the terminals of the tokens -/
def Coded (code : Token → Option Nat) (toks : List STok) (w : List Nat) : Prop :=
  toks.map (fun t => code t.tok) = w.map some

/-- the grammar, on terminals, describes the programs -/
structure Speaks (G : List Rule) (P : Nat) (code : Token → Option Nat) : Prop where
  programs : ∀ toks, (∃ p, parseProgram toks = some p) ↔ ∃ w, Coded code toks w ∧ Der G [.n P] w
  tokens : ∀ w, Der G [.n P] w → ∀ a ∈ w, ∃ t, code t = some a
  kinds : ∀ t, code t.kind = code t

theorem Coded.nil : Coded code [] [] := rfl

theorem Coded.snoc {toks : List STok} {w : List Nat} {t : STok} {a : Nat} (h : Coded code toks w)
    (ha : code t.tok = some a) : Coded code (toks ++ [t]) (w ++ [a]) := by
  simp only [Coded, List.map_append, List.map_cons, List.map_nil, ha] at *
  rw [h]

theorem Coded.inj {toks : List STok} {w w' : List Nat} (h : Coded code toks w) (h' : Coded code toks w') : w = w' := by
  rw [Coded, h] at h'
  exact (List.map_inj_right (fun _ _ e => Option.some.inj e)).1 h'

theorem exists_tokens : ∀ z : List Nat, (∀ a ∈ z, ∃ t, code t = some a) → ∃ rest : List STok, Coded code rest z
  | [], _ => ⟨[], rfl⟩
  | a :: z, h => by
    obtain ⟨t, ht⟩ := h a (.head _)
    obtain ⟨rest, hr⟩ := exists_tokens z fun b hb => h b (.tail _ hb)
    exact ⟨⟨default, t, default⟩ :: rest, by simp only [Coded, List.map_cons, ht]; rw [hr]⟩

theorem viable_of_der (hS : Speaks G P code) {ts : List STok} {w z : List Nat} (h : Coded code ts w)
    (hd : Der G [.n P] (w ++ z)) : Viable ts := by
  obtain ⟨rest, hr⟩ := exists_tokens z fun a ha => hS.tokens _ hd a (List.mem_append.2 (.inr ha))
  have : ∃ p, parseProgram (ts ++ rest) = some p :=
    (hS.programs _).2 ⟨w ++ z, by simp only [Coded, List.map_append] at *; rw [h, hr], hd⟩
  obtain ⟨p, hp⟩ := this
  exact ⟨rest, by rw [hp]; rfl⟩

theorem der_of_viable (hS : Speaks G P code) {ts : List STok} (h : Viable ts) :
    ∃ w z, Coded code ts w ∧ Der G [.n P] (w ++ z) := by
  obtain ⟨rest, hr⟩ := h
  obtain ⟨p, hp⟩ := Option.isSome_iff_exists.1 hr
  obtain ⟨wz, hc, hd⟩ := (hS.programs _).1 ⟨p, hp⟩
  refine ⟨wz.take ts.length, wz.drop ts.length, ?_, by rw [List.take_append_drop]; exact hd⟩
  simp only [Coded] at *
  have := congrArg (List.take ts.length) hc
  rw [List.map_append, List.take_append_of_le_length (by simp), ← List.map_take, ← List.map_take, List.take_length] at this
  exact this

/-- the terminals that can be read to the end after `w` are read from the stack -/
def Comp (G : List Rule) (T : Tables) (P : Nat) (st : List Nat) (w : List Nat) : Prop :=
  ∀ z, Der G [.n P] (w ++ z) → AcceptRun G T st z

theorem Comp.shift {st st' w : List Nat} {a n : Nat} (h : Comp G T P st w) (hs : Settles G T (some a) n st (.shifted st')) :
    Comp G T P st' (w ++ [a]) := by
  intro z hz
  have := h (a :: z) (by simpa using hz)
  cases this with
  | cons h1 h2 =>
    obtain ⟨_, e⟩ := hs.det h1
    injection e with e
    rw [e]; exact h2

/-- what an outcome says about the tokens -/
def Outcome.Right (G : List Rule) (T : Tables) (I : Items) (P : Nat) (rank : Nat → Nat) (R : Nat) (code : Token → Option Nat)
    (fin : Nat → Prop) (all : Option (List STok)) (some_ : List STok) : Outcome → Prop
  | .accept toks => all = some toks ∧ ∃ p, parseProgram toks = some p
  | .badToken got t st => (∃ post, some_ = got ++ t :: post) ∧ Viable got ∧ ¬ Viable (got ++ [t]) ∧
      ∃ w k, Coded code got w ∧ Good G T I rank R fin st w k
  | .badEof got st => all = some got ∧ Viable got ∧ parseProgram got = none ∧
      ∃ w k, Coded code got w ∧ Good G T I rank R fin st w k
  | .extraToken _ => False
  | .lexerPanic => all = none ∧ Viable some_
  | .stuck => False

theorem drive_aux (hG : Tidy G P rank R) (hV : Valid G T I) (hS : Speaks G P code) (U : CharClass) :
    ∃ fin : Nat → Prop, Settling G T I P rank R fin ∧ ∀ n σ st got w k, σ.rest.length < n → Good G T I rank R fin st w k → Comp G T P st w →
      Coded code got w → Viable got →
      ∃ m o, Drive G T code U m σ st got o ∧ m ≤ k + (2 * R + 2) * (yieldedFuel U n σ).length + 1 ∧
        Outcome.Right G T I P rank R code fin ((drainFuel U n σ).map (got ++ ·)) (got ++ yieldedFuel U n σ) o := by
  obtain ⟨fin, hset⟩ := settle hG hV
  refine ⟨fin, hset, fun n => ?_⟩
  induction n with
  | zero => intro σ st got w k hn; omega
  | succ n ih =>
    intro σ st got w k hn hgood hcomp hcoded hviable
    cases hl : lexNext U σ with
    | none =>
      obtain ⟨m, v, hs, hcase⟩ := hset hgood none
      rcases hcase with ⟨a, _, _, h1, _⟩ | ⟨_, rfl, hd, hm⟩ | ⟨st', rfl, hg', hm⟩
      · cases h1
      · refine ⟨m, _, .accept hl hs, by omega, ?_⟩
        simp only [drainFuel, hl, Outcome.Right, Option.map_some, List.append_nil, true_and]
        exact (hS.programs got).2 ⟨w, hcoded, hd⟩
      · refine ⟨m, _, .badEof hl hs, by omega, ?_⟩
        simp only [drainFuel, hl, Outcome.Right, Option.map_some, List.append_nil, true_and]
        refine ⟨hviable, ?_, w, k, hcoded, hg'⟩
        cases hp : parseProgram got with
        | none => rfl
        | some p =>
          obtain ⟨w', hc', hd⟩ := (hS.programs got).1 ⟨p, hp⟩
          rw [← hcoded.inj hc'] at hd
          have := hcomp [] (by simpa using hd)
          cases this with
          | nil h1 =>
            obtain ⟨_, e⟩ := hs.det h1
            cases e
    | panic =>
      refine ⟨0, _, .lexerPanic hl, by omega, ?_⟩
      simp only [drainFuel, yieldedFuel, hl, Outcome.Right, Option.map_none, List.append_nil, true_and]
      exact hviable
    | item t σ' =>
      have hlt := lexNext_item_lt hl
      have notViable : (∀ a z, code t.tok = some a → ¬ Der G [.n P] (w ++ a :: z)) → ¬ Viable (got ++ [t]) := by
        intro h hv
        obtain ⟨w', z, hc, hd⟩ := der_of_viable hS hv
        simp only [Coded, List.map_append, List.map_cons, List.map_nil] at hc
        rw [hcoded] at hc
        cases ha : code t.tok with
        | none =>
          rw [ha] at hc
          have : none ∈ w'.map some := by rw [← hc]; simp
          simp at this
        | some a =>
          rw [ha] at hc
          have : (w ++ [a]).map some = w'.map some := by rw [← hc]; simp
          rw [← (List.map_inj_right (fun _ _ e => Option.some.inj e)).1 this] at hd
          exact h a z ha (by simpa using hd)
      cases ha : code t.tok with
      | none =>
        refine ⟨0, _, .noTerminal hl ha, by omega, ?_⟩
        simp only [Outcome.Right, yieldedFuel, hl]
        exact ⟨⟨_, rfl⟩, hviable, notViable (by intro a z h; rw [ha] at h; cases h), w, k, hcoded, hgood⟩
      | some a =>
        obtain ⟨m, v, hs, hcase⟩ := hset hgood (some a)
        rcases hcase with ⟨b, st', k', hb, rfl, hg', hm, z, hz⟩ | ⟨h1, _⟩ | ⟨st', rfl, hg', hm⟩
        · obtain rfl := Option.some.inj hb
          have hc' := hcoded.snoc ha
          obtain ⟨m', o, hdrive, hm', hright⟩ := ih σ' st' (got ++ [t]) (w ++ [a]) k' (by omega) hg' (hcomp.shift hs) hc'
            (viable_of_der hS hc' (z := z) (by simpa using hz))
          refine ⟨m + m', o, .shift hl ha hs hdrive, ?_, ?_⟩
          · simp only [yieldedFuel, hl, List.length_cons]
            rw [Nat.mul_succ]
            omega
          · have e1 : (drainFuel U n σ').map ((got ++ [t]) ++ ·) = (drainFuel U (n + 1) σ).map (got ++ ·) := by
              simp only [drainFuel, hl, Option.map_map]
              congr 1
              funext l
              simp
            have e2 : (got ++ [t]) ++ yieldedFuel U n σ' = got ++ yieldedFuel U (n + 1) σ := by
              simp only [yieldedFuel, hl]
              simp
            rw [e1, e2] at hright
            exact hright
        · cases h1
        · refine ⟨m, _, .badToken hl ha hs, by omega, ?_⟩
          simp only [Outcome.Right, yieldedFuel, hl]
          refine ⟨⟨_, rfl⟩, hviable, notViable ?_, w, k, hcoded, hg'⟩
          intro b z hb hd
          rw [ha] at hb
          obtain rfl := Option.some.inj hb
          have := hcomp _ hd
          cases this with
          | cons h1 _ =>
            obtain ⟨_, e⟩ := hs.det h1
            cases e

/-- The driver ends on every document, after a number of rounds linear in the number of tokens, with the right
outcome. -/
theorem drive (hG : Tidy G P rank R) (hV : Valid G T I) (hS : Speaks G P code) (U : CharClass) :
    ∃ fin : Nat → Prop, Settling G T I P rank R fin ∧ ∀ doc, ∃ m o, Drive G T code U m (.init doc) [0] [] o ∧
      m ≤ (2 * R + 2) * (yielded U doc).length + 1 ∧
      Outcome.Right G T I P rank R code fin (lexDoc U doc) (yielded U doc) o := by
  obtain ⟨fin, hset, h⟩ := drive_aux hG hV hS U
  refine ⟨fin, hset, fun doc => ?_⟩
  obtain ⟨m, o, h1, h2, h3⟩ := h (doc.length + 1) (.init doc) [0] [] [] 0 (Nat.lt_succ_self _)
    (good_start fin) (fun z hz => complete hG hV (by simpa using hz)) .nil viable_nil
  refine ⟨m, o, h1, by rw [Nat.zero_add] at h2; exact h2, ?_⟩
  have e : ∀ x : Option (List STok), x.map ([] ++ ·) = x := by
    intro x
    cases x <;> rfl
  rw [e, List.nil_append] at h3
  exact h3

theorem Drive.det {U : CharClass} {n m : Nat} {σ : LexState} {st : List Nat} {got : List STok} {o o' : Outcome}
    (h : Drive G T code U n σ st got o) (h' : Drive G T code U m σ st got o') : n = m ∧ o = o' := by
  induction h generalizing m with
  | accept hl hs =>
    have hd := fun {m v} (h : Settles G T _ m _ v) => hs.det h
    clear hs
    cases h' with
    | accept hl' hs' => exact ⟨(hd hs').1, rfl⟩
    | badEof hl' hs' => cases (hd hs').2
    | stuckEof hl' hs' => cases (hd hs').2
    | lexerPanic hl' => rw [hl] at hl'; cases hl'
    | noTerminal hl' => rw [hl] at hl'; cases hl'
    | shift hl' => rw [hl] at hl'; cases hl'
    | badToken hl' => rw [hl] at hl'; cases hl'
    | extra hl' => rw [hl] at hl'; cases hl'
    | stuckTok hl' => rw [hl] at hl'; cases hl'
  | badEof hl hs =>
    have hd := fun {m v} (h : Settles G T _ m _ v) => hs.det h
    clear hs
    cases h' with
    | accept hl' hs' => cases (hd hs').2
    | badEof hl' hs' => obtain ⟨e1, e2⟩ := hd hs'; injection e2 with e2; exact ⟨e1, by rw [e2]⟩
    | stuckEof hl' hs' => cases (hd hs').2
    | lexerPanic hl' => rw [hl] at hl'; cases hl'
    | noTerminal hl' => rw [hl] at hl'; cases hl'
    | shift hl' => rw [hl] at hl'; cases hl'
    | badToken hl' => rw [hl] at hl'; cases hl'
    | extra hl' => rw [hl] at hl'; cases hl'
    | stuckTok hl' => rw [hl] at hl'; cases hl'
  | stuckEof hl hs =>
    have hd := fun {m v} (h : Settles G T _ m _ v) => hs.det h
    clear hs
    cases h' with
    | accept hl' hs' => cases (hd hs').2
    | badEof hl' hs' => cases (hd hs').2
    | stuckEof hl' hs' => exact ⟨(hd hs').1, rfl⟩
    | lexerPanic hl' => rw [hl] at hl'; cases hl'
    | noTerminal hl' => rw [hl] at hl'; cases hl'
    | shift hl' => rw [hl] at hl'; cases hl'
    | badToken hl' => rw [hl] at hl'; cases hl'
    | extra hl' => rw [hl] at hl'; cases hl'
    | stuckTok hl' => rw [hl] at hl'; cases hl'
  | lexerPanic hl =>
    cases h' with
    | accept hl' => rw [hl] at hl'; cases hl'
    | badEof hl' => rw [hl] at hl'; cases hl'
    | stuckEof hl' => rw [hl] at hl'; cases hl'
    | lexerPanic hl' => exact ⟨rfl, rfl⟩
    | noTerminal hl' => rw [hl] at hl'; cases hl'
    | shift hl' => rw [hl] at hl'; cases hl'
    | badToken hl' => rw [hl] at hl'; cases hl'
    | extra hl' => rw [hl] at hl'; cases hl'
    | stuckTok hl' => rw [hl] at hl'; cases hl'
  | noTerminal hl hc =>
    cases h' with
    | accept hl' => rw [hl] at hl'; cases hl'
    | badEof hl' => rw [hl] at hl'; cases hl'
    | stuckEof hl' => rw [hl] at hl'; cases hl'
    | lexerPanic hl' => rw [hl] at hl'; cases hl'
    | noTerminal hl' => rw [hl] at hl'; cases hl'; exact ⟨rfl, rfl⟩
    | shift hl' hc' => rw [hl] at hl'; cases hl'; rw [hc] at hc'; cases hc'
    | badToken hl' hc' => rw [hl] at hl'; cases hl'; rw [hc] at hc'; cases hc'
    | extra hl' hc' => rw [hl] at hl'; cases hl'; rw [hc] at hc'; cases hc'
    | stuckTok hl' hc' => rw [hl] at hl'; cases hl'; rw [hc] at hc'; cases hc'
  | shift hl hc hs _ ih =>
    have hd := fun {m v} (h : Settles G T _ m _ v) => hs.det h
    clear hs
    cases h' with
    | accept hl' => rw [hl] at hl'; cases hl'
    | badEof hl' => rw [hl] at hl'; cases hl'
    | stuckEof hl' => rw [hl] at hl'; cases hl'
    | lexerPanic hl' => rw [hl] at hl'; cases hl'
    | noTerminal hl' hc' => rw [hl] at hl'; cases hl'; rw [hc] at hc'; cases hc'
    | shift hl' hc' hs' hd' =>
      rw [hl] at hl'; cases hl'; rw [hc] at hc'; cases hc'
      obtain ⟨e1, e2⟩ := hd hs'
      injection e2 with e2
      subst e1 e2
      obtain ⟨e1, e2⟩ := ih hd'
      exact ⟨by rw [e1], e2⟩
    | badToken hl' hc' hs' => rw [hl] at hl'; cases hl'; rw [hc] at hc'; cases hc'; cases (hd hs').2
    | extra hl' hc' hs' => rw [hl] at hl'; cases hl'; rw [hc] at hc'; cases hc'; cases (hd hs').2
    | stuckTok hl' hc' hs' => rw [hl] at hl'; cases hl'; rw [hc] at hc'; cases hc'; cases (hd hs').2
  | badToken hl hc hs =>
    have hd := fun {m v} (h : Settles G T _ m _ v) => hs.det h
    clear hs
    cases h' with
    | accept hl' => rw [hl] at hl'; cases hl'
    | badEof hl' => rw [hl] at hl'; cases hl'
    | stuckEof hl' => rw [hl] at hl'; cases hl'
    | lexerPanic hl' => rw [hl] at hl'; cases hl'
    | noTerminal hl' hc' => rw [hl] at hl'; cases hl'; rw [hc] at hc'; cases hc'
    | shift hl' hc' hs' => rw [hl] at hl'; cases hl'; rw [hc] at hc'; cases hc'; cases (hd hs').2
    | badToken hl' hc' hs' =>
      rw [hl] at hl'; cases hl'; rw [hc] at hc'; cases hc'
      obtain ⟨e1, e2⟩ := hd hs'
      injection e2 with e2
      exact ⟨e1, by rw [e2]⟩
    | extra hl' hc' hs' => rw [hl] at hl'; cases hl'; rw [hc] at hc'; cases hc'; cases (hd hs').2
    | stuckTok hl' hc' hs' => rw [hl] at hl'; cases hl'; rw [hc] at hc'; cases hc'; cases (hd hs').2
  | extra hl hc hs =>
    have hd := fun {m v} (h : Settles G T _ m _ v) => hs.det h
    clear hs
    cases h' with
    | accept hl' => rw [hl] at hl'; cases hl'
    | badEof hl' => rw [hl] at hl'; cases hl'
    | stuckEof hl' => rw [hl] at hl'; cases hl'
    | lexerPanic hl' => rw [hl] at hl'; cases hl'
    | noTerminal hl' hc' => rw [hl] at hl'; cases hl'; rw [hc] at hc'; cases hc'
    | shift hl' hc' hs' => rw [hl] at hl'; cases hl'; rw [hc] at hc'; cases hc'; cases (hd hs').2
    | badToken hl' hc' hs' => rw [hl] at hl'; cases hl'; rw [hc] at hc'; cases hc'; cases (hd hs').2
    | extra hl' hc' hs' => rw [hl] at hl'; cases hl'; rw [hc] at hc'; cases hc'; exact ⟨(hd hs').1, rfl⟩
    | stuckTok hl' hc' hs' => rw [hl] at hl'; cases hl'; rw [hc] at hc'; cases hc'; cases (hd hs').2
  | stuckTok hl hc hs =>
    have hd := fun {m v} (h : Settles G T _ m _ v) => hs.det h
    clear hs
    cases h' with
    | accept hl' => rw [hl] at hl'; cases hl'
    | badEof hl' => rw [hl] at hl'; cases hl'
    | stuckEof hl' => rw [hl] at hl'; cases hl'
    | lexerPanic hl' => rw [hl] at hl'; cases hl'
    | noTerminal hl' hc' => rw [hl] at hl'; cases hl'; rw [hc] at hc'; cases hc'
    | shift hl' hc' hs' => rw [hl] at hl'; cases hl'; rw [hc] at hc'; cases hc'; cases (hd hs').2
    | badToken hl' hc' hs' => rw [hl] at hl'; cases hl'; rw [hc] at hc'; cases hc'; cases (hd hs').2
    | extra hl' hc' hs' => rw [hl] at hl'; cases hl'; rw [hc] at hc'; cases hc'; cases (hd hs').2
    | stuckTok hl' hc' hs' => rw [hl] at hl'; cases hl'; rw [hc] at hc'; cases hc'; exact ⟨(hd hs').1, rfl⟩

/-! ### The list of expected tokens is a function of the tokens read -/

/-- the parser, started with the stack, reads the terminals and stops with an error -/
inductive ErrRun (G : List Rule) (T : Tables) : List Nat → List (Option Nat) → List Nat → Prop
  | eof {n st st'} : Settles G T none n st (.error st') → ErrRun G T st [] st'
  | noTerm {st} : ErrRun G T st [none] st
  | bad {n st st' a} : Settles G T (some a) n st (.error st') → ErrRun G T st [some a] st'
  | shift {n st st1 st' a l} : Settles G T (some a) n st (.shifted st1) → ErrRun G T st1 l st' →
      ErrRun G T st (some a :: l) st'

theorem ErrRun.det {st st1 st2 : List Nat} {l : List (Option Nat)} (h : ErrRun G T st l st1) (h' : ErrRun G T st l st2) :
    st1 = st2 := by
  induction h generalizing st2 with
  | eof hs =>
    cases h' with
    | eof hs' => obtain ⟨_, e⟩ := hs.det hs'; injection e
  | noTerm => cases h' with | noTerm => rfl
  | bad hs =>
    have hd := fun {m v} (h : Settles G T _ m _ v) => hs.det h
    cases h' with
    | bad hs' => obtain ⟨_, e⟩ := hd hs'; injection e
    | shift hs' => cases (hd hs').2
  | shift hs _ ih =>
    have hd := fun {m v} (h : Settles G T _ m _ v) => hs.det h
    cases h' with
    | bad hs' => cases (hd hs').2
    | shift hs' h' =>
      obtain ⟨_, e⟩ := hd hs'
      injection e with e
      subst e
      exact ih h'

theorem Drive.errRun {U : CharClass} {n : Nat} {σ : LexState} {st : List Nat} {got : List STok} {o : Outcome}
    (h : Drive G T code U n σ st got o) :
    (∀ got' t st', o = .badToken got' t st' → ∃ l, got' ++ [t] = got ++ l ∧
      ErrRun G T st (l.map fun t => code t.tok) st') ∧
    (∀ got' st', o = .badEof got' st' → ∃ l, got' = got ++ l ∧ ErrRun G T st (l.map fun t => code t.tok) st') := by
  induction h with
  | accept | stuckEof | lexerPanic | extra | stuckTok => exact ⟨fun _ _ _ e => (by cases e), fun _ _ e => (by cases e)⟩
  | badEof _ hs =>
    refine ⟨fun _ _ _ e => (by cases e), fun _ _ e => ?_⟩
    cases e
    exact ⟨[], by simp, .eof hs⟩
  | noTerminal _ hc =>
    refine ⟨fun _ _ _ e => ?_, fun _ _ e => (by cases e)⟩
    cases e
    exact ⟨[_], rfl, by simp only [List.map_cons, List.map_nil, hc]; exact .noTerm⟩
  | badToken _ hc hs =>
    refine ⟨fun _ _ _ e => ?_, fun _ _ e => (by cases e)⟩
    cases e
    exact ⟨[_], rfl, by simp only [List.map_cons, List.map_nil, hc]; exact .bad hs⟩
  | @shift _ _ _ _ _ _ _ t _ _ _ hc hs _ ih =>
    refine ⟨fun got' t' st' e => ?_, fun got' st' e => ?_⟩
    · obtain ⟨l, h1, h2⟩ := ih.1 got' t' st' e
      exact ⟨t :: l, by rw [h1]; simp, by simp only [List.map_cons, hc]; exact .shift hs h2⟩
    · obtain ⟨l, h1, h2⟩ := ih.2 got' st' e
      exact ⟨t :: l, by rw [h1]; simp, by simp only [List.map_cons, hc]; exact .shift hs h2⟩

open Classical in
/-- the expected tokens, as a function of the kinds of the tokens asked for -/
noncomputable def expectedOf (G : List Rule) (T : Tables) (code : Token → Option Nat) (names : List (Nat × Str))
    (kinds : List Token) : List Str :=
  if h : ∃ st, ErrRun G T [0] (kinds.map code) st then expectedNames G T names h.choose else []

theorem expectedOf_eq (hS : Speaks G P code) {names : List (Nat × Str)} {toks : List STok} {st : List Nat}
    (h : ErrRun G T [0] (toks.map fun t => code t.tok) st) :
    expectedOf G T code names (toks.map (·.tok.kind)) = expectedNames G T names st := by
  have e : (toks.map (·.tok.kind)).map code = toks.map fun t => code t.tok := by
    rw [List.map_map]
    exact List.map_congr_left fun t _ => hS.kinds t.tok
  have hex : ∃ st, ErrRun G T [0] ((toks.map (·.tok.kind)).map code) st := ⟨st, by rw [e]; exact h⟩
  unfold expectedOf
  rw [dif_pos hex]
  have h' : ErrRun G T [0] ((toks.map (·.tok.kind)).map code) st := by rw [e]; exact h
  rw [hex.choose_spec.det h']

theorem fromStr_panicked {env : Env} {doc : Str} (h : lexDoc env.chars doc = none) (hv : Viable (yielded env.chars doc)) :
    fromStr env doc = .panic := by
  unfold fromStr
  rw [h]
  dsimp only
  rw [if_pos hv]

theorem fromStr_notViable {env : Env} {doc : Str} (h : lexDoc env.chars doc = none)
    (hv : ¬ Viable (yielded env.chars doc)) :
    fromStr env doc = .err (.parseError (env.parseErrorText (requested [] (yielded env.chars doc)))) := by
  unfold fromStr
  rw [h]
  dsimp only
  rw [if_neg hv]

/-- `from_str` run with the LR driver gives the result of the model. -/
theorem fromStr_iff (hG : Tidy G P rank R) (hV : Valid G T I) (hS : Speaks G P code) (names : List (Nat × Str))
    (chars : CharClass) (esc : Char → Str) (doc : Str) (r : ParseResult) :
    FromStr G T code names chars esc doc r ↔
      r = fromStr (Env.real chars esc (expectedOf G T code names)) doc := by
  obtain ⟨fin, -, hdrive⟩ := drive hG hV hS chars
  obtain ⟨m, o, hd, _, hright⟩ := hdrive doc
  have key : ∀ {r}, FromStr G T code names chars esc doc r → r = fromStr (Env.real chars esc (expectedOf G T code names)) doc := by
    intro r h
    have acc : ∀ {n toks p}, Drive G T code chars n (.init doc) [0] [] (.accept toks) → Derives .program toks p →
        lexDoc chars doc = some toks ∧ parseProgram toks = some p := by
      intro n toks p h1 h2
      obtain ⟨_, rfl⟩ := hd.det h1
      exact ⟨hright.1, (C15_C16_exact toks p).2 h2⟩
    cases h with
    | ok h1 h2 h3 =>
      obtain ⟨e1, e2⟩ := acc h1 h2
      simp only [fromStr, Env.real, e1, e2, h3]
    | emitErr h1 h2 h3 =>
      obtain ⟨e1, e2⟩ := acc h1 h2
      simp only [fromStr, Env.real, e1, e2, h3]
    | emitPanic h1 h2 h3 =>
      obtain ⟨e1, e2⟩ := acc h1 h2
      simp only [fromStr, Env.real, e1, e2, h3]
    | @badToken n got t st h1 =>
      obtain ⟨_, rfl⟩ := hd.det h1
      obtain ⟨⟨post, hy⟩, hv, hnv, _⟩ := hright
      obtain ⟨l, hl, he⟩ := h1.errRun.1 got t st rfl
      rw [List.nil_append] at hl
      rw [← hl] at he
      have hexp := expectedOf_eq hS (names := names) he
      have hreq := requested_split (post := post) hv hnv
      have hse : syntaxError (expectedOf G T code names) (got ++ [t]) = .token t (expectedNames G T names st) := by
        unfold syntaxError
        rw [if_neg hnv]
        simp only [List.getLast?_append, List.getLast?_singleton, Option.some_or, hexp]
      have hnv' : ¬ Viable (yielded chars doc) := by
        intro h
        rw [hy] at h
        exact hnv (Viable.prefix (b := post) (by simpa using h))
      cases hlex : lexDoc chars doc with
      | none =>
        rw [fromStr_notViable (env := Env.real chars esc (expectedOf G T code names)) hlex hnv']
        simp only [Env.real]
        rw [hy, hreq, hse]
      | some toks =>
        have hyt := yielded_of_lexDoc hlex
        have : parseProgram toks = none := by
          cases hp : parseProgram toks with
          | none => rfl
          | some p => exact absurd ⟨[], by rw [List.append_nil, hyt, hp]; rfl⟩ hnv'
        simp only [fromStr, Env.real, hlex, this]
        rw [← hyt, hy, hreq, hse]
    | @badEof n got st h1 =>
      obtain ⟨_, rfl⟩ := hd.det h1
      obtain ⟨hlex, hv, hp, _⟩ := hright
      obtain ⟨l, hl, he⟩ := h1.errRun.2 got st rfl
      rw [List.nil_append] at hl
      rw [← hl] at he
      have hexp := expectedOf_eq hS (names := names) he
      have hse : syntaxError (expectedOf G T code names) got = .eof (stopOf got) (expectedNames G T names st) := by
        unfold syntaxError
        rw [if_pos hv, hexp]
      unfold fromStr
      simp only [Env.real, hlex, hp]
      rw [requested_viable (pre := []) (by simpa using hv), List.nil_append, hse]
    | lexerPanic h1 =>
      obtain ⟨_, rfl⟩ := hd.det h1
      obtain ⟨hlex, hv⟩ := hright
      exact (fromStr_panicked (env := Env.real chars esc (expectedOf G T code names)) hlex hv).symm
    | stuck h1 =>
      obtain ⟨_, rfl⟩ := hd.det h1
      exact hright.elim
    | extra h1 =>
      obtain ⟨_, rfl⟩ := hd.det h1
      exact hright.elim
  refine ⟨key, ?_⟩
  rintro rfl
  have : ∃ r, FromStr G T code names chars esc doc r := by
    cases o with
    | accept toks =>
      obtain ⟨p, hp⟩ := hright.2
      have hder := (C15_C16_exact toks p).1 hp
      cases he : emitProgram (StackObj.debug esc) p with
      | ok c => exact ⟨_, .ok hd hder he⟩
      | err e => exact ⟨_, .emitErr hd hder he⟩
      | panic => exact ⟨_, .emitPanic hd hder he⟩
    | badToken got t st => exact ⟨_, .badToken hd⟩
    | badEof got st => exact ⟨_, .badEof hd⟩
    | lexerPanic => exact ⟨_, .lexerPanic hd⟩
    | stuck => exact hright.elim
    | extraToken t => exact hright.elim
  obtain ⟨r, hr⟩ := this
  rw [← key hr]
  exact hr

end Verif.LR
