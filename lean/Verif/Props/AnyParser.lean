import Verif.Proofs.LRTypeTables
import Verif.Proofs.LRValues
import Verif.Props.LRValues
/-
C82: the generated LR parsers of all public nonterminals (`TypeArgumentParser`, `FullExpressionParser`, ...; the tests of
the crate use them directly), as they run, with the values on the stack.

As for `Program` (C60, C61, C63) the theorems hold for all tables that fit the grammar file with this start symbol.
-/
namespace Verif

open LR

variable {x : GName} {T : Tables} {I : Items}

theorem fair (hV : Valid (desugaredFor x) T I) {chars : CharClass} {n : Nat} {doc : Str} {o : LR.Outcome}
    (h : Drive (desugaredFor x) T code chars n (.init doc) [0] [] o) :
    ∃ fin : Nat → Prop, Settling (desugaredFor x) T I (num x) (fun y => ranksAny[y]?.getD 0) 6 fin ∧
      LR.Outcome.Fair (desugaredFor x) T I (num x) (fun y => ranksAny[y]?.getD 0) 6 code fin
      (lexDoc chars doc) (yielded chars doc) o := by
  obtain ⟨fin, hset, hd⟩ := drive_any (tidyAny x) hV code chars
  obtain ⟨n', o', hd', _, hr⟩ := hd doc
  obtain ⟨_, rfl⟩ := h.det hd'
  exact ⟨fin, hset, hr⟩

/-- tokens with these terminals are generated -/
theorem gen_of_coded {toks : List STok} {w : List Nat} (hc : Coded code toks w) (hd : Der (desugaredFor x) [.n (num x)] w) :
    Gen [.non x] (toks.map (·.tok)) := by
  refine (gen_iff_der (start := x) x _).2 ⟨w, ?_, hd⟩
  simp only [Coded] at hc
  rw [← hc, List.map_map]
  rfl

theorem coded_of_gen {toks : List STok} (h : Gen [.non x] (toks.map (·.tok))) :
    ∃ w, Coded code toks w ∧ Der (desugaredFor x) [.n (num x)] w := by
  obtain ⟨w, hw, hd⟩ := (gen_iff_der (start := x) x _).1 h
  refine ⟨w, ?_, hd⟩
  simp only [Coded]
  rw [← hw, List.map_map]
  rfl

/-- what can be continued on terminals can be continued on tokens -/
theorem gen_continues {toks : List STok} {w z : List Nat} (hc : Coded code toks w)
    (hd : Der (desugaredFor x) [.n (num x)] (w ++ z)) : ∃ rest : List STok, Gen [.non x] ((toks ++ rest).map (·.tok)) ∧
      Coded code rest z := by
  obtain ⟨rest, hr⟩ := exists_tokens (code := code) z fun b hb => der_tok hd (by simp) b (by simp [hb])
  refine ⟨rest, gen_of_coded (w := w ++ z) ?_ hd, hr⟩
  simp only [Coded] at hc hr ⊢
  simp only [List.map_append, hc, hr]

/-- one direction of splitting terminals along tokens -/
theorem coded_split {a b : List STok} {w : List Nat} (h : Coded code (a ++ b) w) :
    ∃ u v, w = u ++ v ∧ Coded code a u ∧ Coded code b v := by
  refine ⟨w.take a.length, w.drop a.length, (List.take_append_drop ..).symm, ?_, ?_⟩
  · simp only [Coded] at *
    have := congrArg (List.take a.length) h
    rw [List.map_append, List.take_left' (by simp), ← List.map_take] at this
    exact this
  · simp only [Coded] at *
    have := congrArg (List.drop a.length) h
    rw [List.map_append, List.drop_left' (by simp), ← List.map_drop] at this
    exact this

/-- Without values: the parser for `x` accepts exactly the documents that the lexer takes apart into tokens generated
by `x`. -/
theorem C82_accepts (hV : Valid (desugaredFor x) T I) (chars : CharClass) (doc : Str) (toks : List STok) :
    (∃ n, Drive (desugaredFor x) T code chars n (.init doc) [0] [] (.accept toks)) ↔
      lexDoc chars doc = some toks ∧ Gen [.non x] (toks.map (·.tok)) := by
  constructor
  · rintro ⟨n, h⟩
    obtain ⟨_, _, h1, w, hc, hd⟩ := fair hV h
    exact ⟨h1, gen_of_coded hc hd⟩
  · rintro ⟨h1, h2⟩
    obtain ⟨w, hc, hder⟩ := coded_of_gen h2
    obtain ⟨fin, -, h⟩ := drive_any (tidyAny x) hV code chars
    obtain ⟨n, o, hd, _, hr⟩ := h doc
    have hy := yielded_of_lexDoc h1
    cases o with
    | accept toks' =>
      have := hr.1
      rw [h1] at this
      injection this with e
      subst e
      exact ⟨n, hd⟩
    | badToken got t st =>
      obtain ⟨⟨post, e⟩, w', _, hc', _, _, hno⟩ := hr
      rw [hy] at e
      rw [e] at hc
      obtain ⟨u, v, rfl, h3, h4⟩ := coded_split hc
      rw [h3.inj hc'] at hder
      have ht : ∃ a z, v = a :: z ∧ code t.tok = some a := by
        cases v with
        | nil => simp [Coded] at h4
        | cons a z =>
          simp only [Coded, List.map_cons, List.cons.injEq] at h4
          exact ⟨a, z, rfl, h4.1⟩
      obtain ⟨a, z, rfl, ha⟩ := ht
      exact absurd hder (hno a z ha)
    | badEof got st =>
      obtain ⟨e, w', _, hc', _, _, hno⟩ := hr
      rw [h1] at e
      injection e with e
      subst e
      rw [hc.inj hc'] at hder
      exact absurd hder hno
    | extraToken t => exact absurd hr id
    | lexerPanic =>
      have := hr.1
      rw [h1] at this
      cases this
    | stuck => exact absurd hr id

/-- The parser for `x` returns a value exactly if the lexer takes the document apart into tokens of which the productions
make an `x` and the actions compute that value. -/
theorem C82_value (hV : Valid (desugaredFor x) T I) (chars : CharClass) (doc : Str) (r : RV) :
    (∃ n, VDrive (desugaredFor x) T code chars n (.init doc) [0] [] [] (.accept r)) ↔
      ∃ toks, lexDoc chars doc = some toks ∧ Builds [.non x] [(toks, r)] := by
  constructor
  · rintro ⟨n, h⟩
    obtain ⟨o, hd, hs⟩ := v_drive (tidyAny x) hV h vinv_start
    cases hs with
    | accept hb => exact ⟨_, ((C82_accepts hV chars doc _).1 ⟨n, hd⟩).1, hb⟩
  · rintro ⟨toks, hl, hb⟩
    obtain ⟨n, hd⟩ := (C82_accepts hV chars doc toks).2 ⟨hl, (C62_total x toks).2 ⟨r, hb⟩⟩
    obtain ⟨o', hd', hs⟩ := drive_v (tidyAny x) hV hd vinv_start
    cases hs with
    | accept hb' =>
      rw [C62_unique x toks _ _ hb hb']
      exact ⟨n, hd'⟩

/-- the value is the tree of the model -/
theorem C82_tree (hV : Valid (desugaredFor x) T I) (chars : CharClass) (doc : Str) (v : Val x.nt) :
    (∃ n, VDrive (desugaredFor x) T code chars n (.init doc) [0] [] [] (.accept (rv x.nt v))) ↔
      ∃ toks, lexDoc chars doc = some toks ∧ parseAs x.nt toks = some v := by
  rw [C82_value hV]
  refine exists_congr fun toks => and_congr_right fun _ => ?_
  rw [C62_parsers]
  constructor
  · rintro ⟨q, hq, e⟩
    rw [hq, C62_faithful x.nt v q e]
  · intro h
    exact ⟨v, h, rfl⟩

/-- Every parser ends on every document, after at most fourteen rounds of its loop per token; no action meets a value it was
not written for, no stack is too short, and no extra token is reported. -/
theorem C82_ends (hV : Valid (desugaredFor x) T I) (chars : CharClass) (doc : Str) :
    ∃ n o, VDrive (desugaredFor x) T code chars n (.init doc) [0] [] [] o ∧ n ≤ 14 * (yielded chars doc).length + 1 ∧
      o ≠ .stuck ∧ ∀ t, o ≠ .extraToken t := by
  obtain ⟨fin, -, h⟩ := drive_any (tidyAny x) hV code chars
  obtain ⟨n, o, hd, hn, hr⟩ := h doc
  obtain ⟨o', hd', hs⟩ := drive_v (tidyAny x) hV hd vinv_start
  refine ⟨n, o', hd', hn, ?_, ?_⟩
  · rintro rfl; cases hs; exact hr
  · rintro t rfl; cases hs; exact hr

/-- the way it ends is determined -/
theorem C82_deterministic (hV : Valid (desugaredFor x) T I) {chars : CharClass} {n m : Nat} {doc : Str} {o o' : VOutcome}
    (h : VDrive (desugaredFor x) T code chars n (.init doc) [0] [] [] o)
    (h' : VDrive (desugaredFor x) T code chars m (.init doc) [0] [] [] o') : n = m ∧ o = o' := by
  obtain ⟨p, hd, hs⟩ := v_drive (tidyAny x) hV h vinv_start
  obtain ⟨p', hd', hs'⟩ := v_drive (tidyAny x) hV h' vinv_start
  obtain ⟨rfl, rfl⟩ := hd.det hd'
  refine ⟨rfl, ?_⟩
  cases hs with
  | accept hb => cases hs' with | accept hb' => rw [C62_unique x _ _ _ hb hb']
  | _ => cases hs'; rfl

/-- A token is rejected at the earliest moment: the tokens before it begin some `x`, with it they begin none. -/
theorem C82_rejects (hV : Valid (desugaredFor x) T I) {chars : CharClass} {n : Nat} {doc : Str}
    {got : List STok} {t : STok} {st : List Nat}
    (h : VDrive (desugaredFor x) T code chars n (.init doc) [0] [] [] (.badToken got t st)) :
    (∃ post, yielded chars doc = got ++ t :: post) ∧ (∃ rest, Gen [.non x] ((got ++ rest).map (·.tok))) ∧
      ∀ rest, ¬ Gen [.non x] ((got ++ t :: rest).map (·.tok)) := by
  obtain ⟨o, hd, hs⟩ := v_drive (tidyAny x) hV h vinv_start
  cases hs
  obtain ⟨_, _, hy, w, k, hc, _, ⟨z, hz⟩, hno⟩ := fair hV hd
  obtain ⟨rest, hr, _⟩ := gen_continues hc hz
  refine ⟨hy, ⟨rest, hr⟩, fun rest hg => ?_⟩
  obtain ⟨w', hc', hder⟩ := coded_of_gen hg
  obtain ⟨u, v, rfl, h3, h4⟩ := coded_split hc'
  rw [h3.inj hc] at hder
  cases v with
  | nil => simp [Coded] at h4
  | cons a z =>
    simp only [Coded, List.map_cons, List.cons.injEq] at h4
    exact hno a z h4.1 hder

/-- The end of the input is rejected only if all the tokens begin some `x` and are none themselves. -/
theorem C82_rejects_end (hV : Valid (desugaredFor x) T I) {chars : CharClass} {n : Nat} {doc : Str}
    {got : List STok} {st : List Nat} (h : VDrive (desugaredFor x) T code chars n (.init doc) [0] [] [] (.badEof got st)) :
    lexDoc chars doc = some got ∧ (∃ rest, Gen [.non x] ((got ++ rest).map (·.tok))) ∧ ¬ Gen [.non x] (got.map (·.tok)) := by
  obtain ⟨o, hd, hs⟩ := v_drive (tidyAny x) hV h vinv_start
  cases hs
  obtain ⟨_, _, hl, w, k, hc, _, ⟨z, hz⟩, hno⟩ := fair hV hd
  obtain ⟨rest, hr, _⟩ := gen_continues hc hz
  refine ⟨hl, ⟨rest, hr⟩, fun hg => ?_⟩
  obtain ⟨w', hc', hder⟩ := coded_of_gen hg
  rw [hc'.inj hc] at hder
  exact hno hder

/-- The parser panics exactly if the lexer does, before a token is rejected. -/
theorem C82_panics (hV : Valid (desugaredFor x) T I) (chars : CharClass) (doc : Str) :
    (∃ n, VDrive (desugaredFor x) T code chars n (.init doc) [0] [] [] .lexerPanic) ↔
      lexDoc chars doc = none ∧ ∃ rest : List STok, Gen [.non x] ((yielded chars doc ++ rest).map (·.tok)) := by
  constructor
  · rintro ⟨n, h⟩
    obtain ⟨o, hd, hs⟩ := v_drive (tidyAny x) hV h vinv_start
    cases hs
    obtain ⟨_, _, hl, w, hc, z, hz⟩ := fair hV hd
    obtain ⟨rest, hr, _⟩ := gen_continues hc hz
    exact ⟨hl, rest, hr⟩
  · rintro ⟨hl, rest, hr⟩
    obtain ⟨n, o, hd, _, h1, h2⟩ := C82_ends hV chars doc
    cases o with
    | accept r =>
      obtain ⟨toks, h, _⟩ := (C82_value hV chars doc r).1 ⟨n, hd⟩
      rw [hl] at h; cases h
    | badToken got t st =>
      obtain ⟨⟨post, e⟩, _, hno⟩ := C82_rejects hV hd
      rw [e] at hr
      exact absurd (by simpa using hr) (hno (post ++ rest))
    | badEof got st =>
      have := (C82_rejects_end hV hd).1
      rw [hl] at this; cases this
    | extraToken t => exact absurd rfl (h2 t)
    | lexerPanic => exact ⟨n, hd⟩
    | stuck => exact absurd rfl h1

/-- the stack of an error: whatever the simulation accepts can really follow the tokens read -/
theorem any_continues {fin : Nat → Prop} {got : List STok} {w st : List Nat} {k a : Nat}
    (hfin : Settling (desugaredFor x) T I (num x) (fun y => ranksAny[y]?.getD 0) 6 fin)
    (hc : Coded code got w) (hg : Good (desugaredFor x) T I (fun y => ranksAny[y]?.getD 0) 6 fin st w k)
    (ha : Accepts (desugaredFor x) T st a) :
    ∃ t : STok, code t.tok = some a ∧ ∃ rest : List STok, Gen [.non x] ((got ++ t :: rest).map (·.tok)) := by
  obtain ⟨n, v, hs, hv⟩ := ha
  obtain ⟨n', v', hs', h⟩ := hfin hg (some a)
  obtain ⟨_, rfl⟩ := hs.det hs'
  have : ∃ z, Der (desugaredFor x) [.n (num x)] (w ++ a :: z) := by
    rcases h with ⟨a', _, _, e, _, _, _, z, hz⟩ | ⟨e, _⟩ | ⟨st', rfl, _⟩
    · injection e with e
      subst e
      exact ⟨z, hz⟩
    · cases e
    · rcases hv with e | ⟨_, e⟩ <;> cases e
  obtain ⟨z, hz⟩ := this
  obtain ⟨rest, hr, hcr⟩ := gen_continues hc hz
  cases rest with
  | nil => simp [Coded] at hcr
  | cons t rest =>
    simp only [Coded, List.map_cons, List.cons.injEq] at hcr
    exact ⟨t, hcr.1, rest, hr⟩

/-- A token or the end is rejected, with a list of expected tokens: each of them is a kind of token that could really have
come instead. -/
theorem C82_expected (hV : Valid (desugaredFor x) T I) {chars : CharClass} {n : Nat} {doc : Str} {got : List STok}
    {o : VOutcome} {st : List Nat} (h : VDrive (desugaredFor x) T code chars n (.init doc) [0] [] [] o)
    (ho : (∃ t, o = .badToken got t st) ∨ o = .badEof got st) {a : Nat} (ha : Accepts (desugaredFor x) T st a) :
    ∃ t : STok, code t.tok = some a ∧ ∃ rest : List STok, Gen [.non x] ((got ++ t :: rest).map (·.tok)) := by
  obtain ⟨p, hd, hs⟩ := v_drive (tidyAny x) hV h vinv_start
  rcases ho with ⟨t, rfl⟩ | rfl
  · cases hs
    obtain ⟨_, hset, _, w, k, hc, hg, _⟩ := fair hV hd
    exact any_continues hset hc hg ha
  · cases hs
    obtain ⟨_, hset, _, w, k, hc, hg, _⟩ := fair hV hd
    exact any_continues hset hc hg ha

/-- the tables of tools/lr_tables.py for `ScillaTypeParser` -/
abbrev typeTables : Tables := tablesOf lrTypeRules lrTypeStates

/-- they fit the grammar file -/
theorem C82_tables : Valid (desugaredFor .ScillaType) typeTables (itemSets lrTypeStates) := lrTypeRules_eq ▸ lrTypeValid

def typeDoc : Str := str! "Map ByStr20 Uint128"

set_option maxRecDepth 100000 in
/-- Concrete cases: `ScillaTypeParser` reads `Map ByStr20 Uint128` and returns the tree; it stops at the end of `Map`, where
`ByStr20` is expected and `end` is not. -/
theorem C82_witness : (∃ n toks v, VDrive (desugaredFor .ScillaType) typeTables code demoU n (.init typeDoc) [0] [] []
      (.accept (rv .scillaType v)) ∧ lexDoc demoU typeDoc = some toks ∧ parseAs .scillaType toks = some v ∧ toks.length = 3) ∧
    ∃ n got st, VDrive (desugaredFor .ScillaType) typeTables code demoU n (.init (str! "Map")) [0] [] [] (.badEof got st) ∧
      (∃ a, code .byStr = some a ∧ Accepts (desugaredFor .ScillaType) typeTables st a) ∧
      ∃ a, code .end_ = some a ∧ ¬ Accepts (desugaredFor .ScillaType) typeTables st a := by
  constructor
  · have h1 : (lexDoc demoU typeDoc).map List.length = some 3 := by decide +kernel
    have h2 : ((lexDoc demoU typeDoc).bind (parseAs .scillaType)).isSome = true := by decide +kernel
    obtain ⟨toks, hl⟩ : ∃ toks, lexDoc demoU typeDoc = some toks := by
      cases h : lexDoc demoU typeDoc with
      | none => rw [h] at h1; cases h1
      | some toks => exact ⟨toks, rfl⟩
    rw [hl] at h1 h2
    obtain ⟨v, hv⟩ := Option.isSome_iff_exists.1 h2
    obtain ⟨n, hn⟩ := (C82_tree (x := .ScillaType) C82_tables demoU typeDoc v).2 ⟨toks, hl, hv⟩
    exact ⟨n, toks, v, hn, hl, hv, Option.some.inj h1⟩
  · have hl : lexNext demoU (.init (str! "Map")) = .item ⟨⟨0, 0, 0⟩, .map, ⟨3, 0, 3⟩⟩ ⟨[], 3, 0, 0, 0⟩ := by decide +kernel
    have h1 : runs lrTypeRules typeTables (some 43) 1 [0] = some (.shifted [5, 0]) := by decide +kernel
    have h2 : runs lrTypeRules typeTables none 1 [5, 0] = some (.error [5, 0]) := by decide +kernel
    have h3 : runs lrTypeRules typeTables (some 50) 1 [5, 0] = some (.shifted [12, 5, 0]) := by decide +kernel
    have h4 : runs lrTypeRules typeTables (some 30) 1 [5, 0] = some (.error [5, 0]) := by decide +kernel
    rw [lrTypeRules_eq] at h1 h2 h3 h4
    obtain ⟨k1, hk1⟩ := settles_of_runs h1
    obtain ⟨k2, hk2⟩ := settles_of_runs h2
    obtain ⟨k3, hk3⟩ := settles_of_runs h3
    obtain ⟨k4, hk4⟩ := settles_of_runs h4
    have hd : Drive (desugaredFor .ScillaType) typeTables code demoU (k1 + k2) (.init (str! "Map")) [0] []
        (.badEof [⟨⟨0, 0, 0⟩, .map, ⟨3, 0, 3⟩⟩] [5, 0]) :=
      .shift hl (by decide +kernel) hk1 (.badEof (by decide +kernel) hk2)
    obtain ⟨o, hv, hs⟩ := drive_v (tidyAny .ScillaType) C82_tables hd vinv_start
    cases hs
    refine ⟨_, _, _, hv, ⟨50, by decide +kernel, k3, _, hk3, .inr ⟨_, rfl⟩⟩, 30, by decide +kernel, ?_⟩
    rintro ⟨n, v, hn, hv⟩
    obtain ⟨_, rfl⟩ := hn.det hk4
    rcases hv with e | ⟨_, e⟩ <;> cases e

end Verif
